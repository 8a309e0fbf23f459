import Verif.Props.Branches
import Verif.Props.Presolve
import Verif.Props.NetBalance
/-!
C95: the structure of networks in a calculation (`Spec.Reduced`) follows from the branch search (C15) and the topology
reduction (C17).
-/
namespace Tespy

/-! ### runs of the search -/

/-- the search goes on from `i` to `o` within the branch -/
def Pushes (cs : List ConnObj) (i o : ConnObj) : Prop :=
  match i.target.pass with
  | .through => paired cs i = .ok o
  | .engine => i ∉ (inl cs i.target).drop 2 ∧ paired cs i = .ok o
  | .reactor => (inl cs i.target)[0]? = some i ∧ paired cs i = .ok o
  | .drum => i.targetId ≠ "in2" ∧ (outl cs i.target)[1]? = some o ∧ ∃ o0 n sub, (outl cs i.target)[0]? = some o0 ∧
      propagate cs n (Branch.start i.target o0) = .ok sub ∧ sub.comps.getLast? = some i.target
  | .stop => False
  | .fanout => False

/-- the branch ends with `i` -/
def Halts (cs : List ConnObj) (i : ConnObj) : Prop :=
  match i.target.pass with
  | .through => False
  | .engine => i ∈ (inl cs i.target).drop 2
  | .reactor => (inl cs i.target)[0]? ≠ some i
  | .drum => i.targetId = "in2" ∨ ∃ o0 n sub, (outl cs i.target)[0]? = some o0 ∧
      propagate cs n (Branch.start i.target o0) = .ok sub ∧ sub.comps.getLast? ≠ some i.target
  | .stop => True
  | .fanout => True

/-- from `i` the search collects `l` and ends -/
inductive Run (cs : List ConnObj) : ConnObj → List ConnObj → Prop
  | halt {i} : Halts cs i → Run cs i []
  | push {i o l} : Pushes cs i o → Run cs o l → Run cs i (o :: l)

/-- connections and components of a finished branch -/
def Finished (cs : List ConnObj) (e : List ConnObj × List CompObj) : Prop :=
  (∃ i l, e.1 = i :: l ∧ Run cs i l) ∧ e.2.getLast? = e.1.getLast?.map ConnObj.target

theorem fanOut_mono {go go' : Branch → PyRes Branch} (h : ∀ b b', go b = .ok b' → go' b = .ok b') (cp : CompObj)
    (os : List ConnObj) : ∀ b b', fanOut go cp os b = .ok b' → fanOut go' cp os b = .ok b' := by
  induction os with
  | nil => intro b b' hb; exact hb
  | cons o os ih =>
    intro b b' hb
    simp only [fanOut] at hb ⊢
    cases hg : go (Branch.start cp o) with
    | error e => rw [hg] at hb; cases hb
    | ok sub =>
      rw [hg] at hb
      rw [h _ _ hg]
      exact ih _ _ hb

theorem propagate_succ (cs : List ConnObj) (n : ℕ) : ∀ b b', propagate cs n b = .ok b' → propagate cs (n + 1) b = .ok b' := by
  induction n with
  | zero => intro b b' h; cases h
  | succ n ih =>
    intro b b' h
    rw [propagate] at h ⊢
    cases hl : b.conns.getLast? with
    | none => rw [hl] at h; cases h
    | some i =>
      rw [hl] at h
      dsimp only at h ⊢
      have hpush : ∀ r : PyRes ConnObj, (match r with
          | .error e => (.error e : PyRes Branch)
          | .ok o => propagate cs n (b.push o)) = .ok b' → (match r with
          | .error e => (.error e : PyRes Branch)
          | .ok o => propagate cs (n + 1) (b.push o)) = .ok b' := by
        intro r hr
        cases r with
        | error e => cases hr
        | ok o => exact ih _ _ hr
      cases hp : i.target.pass <;> rw [hp] at h <;> dsimp only at h ⊢
      · exact hpush _ h
      · exact h
      · exact fanOut_mono ih _ _ _ _ h
      · split at h
        · next h2 => rw [if_pos h2]; exact h
        · next h2 =>
          rw [if_neg h2]
          cases h0 : (outl cs i.target)[0]? with
          | none => rw [h0] at h; cases h
          | some o0 =>
            rw [h0] at h
            dsimp only at h ⊢
            cases hs : propagate cs n (Branch.start i.target o0) with
            | error e => rw [hs] at h; cases h
            | ok sub =>
              rw [hs] at h
              rw [ih _ _ hs]
              dsimp only at h ⊢
              cases h1 : (outl cs i.target)[1]? with
              | none => rw [h1] at h; cases h
              | some o1 =>
                rw [h1] at h
                dsimp only at h ⊢
                split at h
                · next h3 => rw [if_pos h3]; exact ih _ _ h
                · next h3 => rw [if_neg h3]; exact fanOut_mono ih _ _ _ _ h
      · split at h
        · next h2 => rw [if_pos h2]; exact h
        · next h2 => rw [if_neg h2]; exact hpush _ h
      · split at h
        · next h2 => rw [if_pos h2]; exact hpush _ h
        · next h2 => rw [if_neg h2]; exact h

theorem propagate_add (cs : List ConnObj) (n k : ℕ) (b b' : Branch) (h : propagate cs n b = .ok b') :
    propagate cs (n + k) b = .ok b' := by
  induction k with
  | zero => exact h
  | succ k ih => exact propagate_succ cs _ _ _ ih

/-- the result does not depend on the depth -/
theorem propagate_det (cs : List ConnObj) {n m : ℕ} {b b1 b2 : Branch} (h1 : propagate cs n b = .ok b1)
    (h2 : propagate cs m b = .ok b2) : b1 = b2 := by
  have e1 := propagate_add cs n m b b1 h1
  have e2 := propagate_add cs m n b b2 h2
  rw [Nat.add_comm, e2] at e1
  cases e1; rfl

theorem Pushes.unique {cs : List ConnObj} {i o o' : ConnObj} (h : Pushes cs i o) (h' : Pushes cs i o') : o = o' := by
  unfold Pushes at h h'
  cases hp : i.target.pass <;> rw [hp] at h h' <;> dsimp only at h h'
  · rw [h] at h'; cases h'; rfl
  · rw [h.2.1] at h'
    obtain ⟨_, h', _⟩ := h'
    cases h'; rfl
  · rw [h.2] at h'
    obtain ⟨_, h'⟩ := h'
    cases h'; rfl
  · rw [h.2] at h'
    obtain ⟨_, h'⟩ := h'
    cases h'; rfl

theorem Pushes.not_halts {cs : List ConnObj} {i o : ConnObj} (h : Pushes cs i o) : ¬ Halts cs i := by
  intro h'
  unfold Pushes at h
  unfold Halts at h'
  cases hp : i.target.pass <;> rw [hp] at h h' <;> dsimp only at h h'
  · obtain ⟨h2, _, o0, n, sub, h0, hs, hl⟩ := h
    rcases h' with h' | ⟨o0', n', sub', h0', hs', hl'⟩
    · exact h2 h'
    · rw [h0] at h0'; cases h0'
      rw [propagate_det cs hs hs'] at hl
      exact hl' hl
  · exact h.1 h'
  · exact h' h.1

theorem Run.unique {cs : List ConnObj} {i : ConnObj} {l l' : List ConnObj} (h : Run cs i l) (h' : Run cs i l') : l = l' := by
  induction h generalizing l' with
  | halt hh =>
    cases h' with
    | halt _ => rfl
    | push hp _ => exact absurd hh hp.not_halts
  | push hp _ ih =>
    cases h' with
    | halt hh => exact absurd hh hp.not_halts
    | push hp' hr =>
      have := hp.unique hp'
      subst this
      rw [ih hr]

/-- the rest of a run is a run -/
theorem Run.suffix {cs : List ConnObj} {i : ConnObj} {l : List ConnObj} (h : Run cs i l) :
    ∀ c ∈ i :: l, ∃ l', Run cs c l' ∧ (c :: l') <:+ (i :: l) := by
  induction h with
  | halt hh =>
    intro c hc
    rw [List.mem_singleton] at hc
    subst hc
    exact ⟨[], .halt hh, List.suffix_refl _⟩
  | push hp hr ih =>
    intro c hc
    rcases List.mem_cons.1 hc with rfl | hc
    · exact ⟨_, .push hp hr, List.suffix_refl _⟩
    · obtain ⟨l', h1, h2⟩ := ih c hc
      exact ⟨l', h1, h2.trans (List.suffix_cons _ _)⟩

/-! ### the search produces runs -/

theorem flatAll_set (d : Dict String Branch) (k : String) (b : Branch) :
    ∀ e ∈ flatAll (Dict.set d k b), e ∈ flatAll d ∨ e ∈ b.flat := by
  induction d with
  | nil => intro e he; simp [Dict.set, flatAll] at he; exact Or.inr he
  | cons x d ih =>
    obtain ⟨k', b'⟩ := x
    intro e he
    simp only [Dict.set] at he
    split at he
    · simp only [flatAll, List.mem_append] at he ⊢
      tauto
    · simp only [flatAll, List.mem_append] at he ⊢
      rcases he with he | he
      · tauto
      · have := ih e he
        tauto

/-- what a recursive call does -/
def GoRun (cs : List ConnObj) (n : ℕ) : Prop :=
  ∀ (b b' : Branch) (i : ConnObj), b.conns.getLast? = some i → b.comps.getLast? = some i.target →
    propagate cs n b = .ok b' → ∃ l, b'.conns = b.conns ++ l ∧ Run cs i l ∧
      b'.comps.getLast? = b'.conns.getLast?.map ConnObj.target ∧
      ∀ e ∈ flatAll b'.subs, e ∈ flatAll b.subs ∨ Finished cs e

theorem start_finished {cs : List ConnObj} {n : ℕ} (go : GoRun cs n) {cp : CompObj} {o : ConnObj} {sub : Branch}
    (h : propagate cs n (Branch.start cp o) = .ok sub) :
    (∃ l, sub.conns = o :: l ∧ Run cs o l) ∧ sub.comps.getLast? = sub.conns.getLast?.map ConnObj.target ∧
    ∀ e ∈ sub.flat, Finished cs e := by
  obtain ⟨l, h1, h2, h3, h4⟩ := go _ _ o rfl rfl h
  refine ⟨⟨l, h1, h2⟩, h3, ?_⟩
  cases sub with
  | mk a b c =>
    intro e he
    rw [flat_mk] at he
    rcases List.mem_cons.1 he with rfl | he
    · exact ⟨⟨o, l, h1, h2⟩, h3⟩
    · rcases h4 e he with h | h
      · simp [Branch.start, Branch.subs, flatAll] at h
      · exact h

theorem fanOut_run {cs : List ConnObj} {n : ℕ} (go : GoRun cs n) (cp : CompObj) (os : List ConnObj) :
    ∀ b b', fanOut (propagate cs n) cp os b = .ok b' → b'.conns = b.conns ∧ b'.comps = b.comps ∧
      ∀ e ∈ flatAll b'.subs, e ∈ flatAll b.subs ∨ Finished cs e := by
  induction os with
  | nil => intro b b' h; simp only [fanOut, Except.ok.injEq] at h; subst h; exact ⟨rfl, rfl, fun e he => Or.inl he⟩
  | cons o os ih =>
    intro b b' h
    simp only [fanOut] at h
    cases hg : propagate cs n (Branch.start cp o) with
    | error e => rw [hg] at h; cases h
    | ok sub =>
      rw [hg] at h
      obtain ⟨h1, h2, h3⟩ := ih _ _ h
      refine ⟨h1, h2, fun e he => ?_⟩
      rcases h3 e he with he | he
      · rcases flatAll_set b.subs o.label sub e he with he | he
        · exact Or.inl he
        · exact Or.inr ((start_finished go hg).2.2 e he)
      · exact Or.inr he

theorem goRun (cs : List ConnObj) (n : ℕ) : GoRun cs n := by
  induction n with
  | zero => intro b b' i _ _ h; cases h
  | succ n go =>
    intro b b' i hl hc h
    have hend : Halts cs i → b' = b → ∃ l, b'.conns = b.conns ++ l ∧ Run cs i l ∧
        b'.comps.getLast? = b'.conns.getLast?.map ConnObj.target ∧
        ∀ e ∈ flatAll b'.subs, e ∈ flatAll b.subs ∨ Finished cs e := by
      rintro hh rfl
      exact ⟨[], by simp, .halt hh, by rw [hl, hc]; rfl, fun e he => Or.inl he⟩
    have hgo : ∀ o (b0 : Branch), b0.conns = b.conns → b0.comps = b.comps →
        (∀ e ∈ flatAll b0.subs, e ∈ flatAll b.subs ∨ Finished cs e) → Pushes cs i o →
        propagate cs n (b0.push o) = .ok b' → ∃ l, b'.conns = b.conns ++ l ∧ Run cs i l ∧
        b'.comps.getLast? = b'.conns.getLast?.map ConnObj.target ∧
        ∀ e ∈ flatAll b'.subs, e ∈ flatAll b.subs ∨ Finished cs e := by
      intro o b0 e1 e2 e3 hp hg
      obtain ⟨l, h1, h2, h3, h4⟩ := go _ _ o (by simp [Branch.push, Branch.conns]) (by simp [Branch.push, Branch.comps]) hg
      refine ⟨o :: l, by rw [h1]; simp [Branch.push, Branch.conns]; exact e1, .push hp h2, h3, fun e he => ?_⟩
      rcases h4 e he with he | he
      · exact e3 e he
      · exact Or.inr he
    rw [propagate, hl] at h
    dsimp only at h
    cases hp : i.target.pass <;> rw [hp] at h <;> dsimp only at h
    · cases hq : paired cs i with
      | error e => rw [hq] at h; cases h
      | ok o =>
        rw [hq] at h
        exact hgo o b rfl rfl (fun e he => Or.inl he) (by unfold Pushes; rw [hp]; exact hq) h
    · exact hend (by unfold Halts; rw [hp]; trivial) (by cases h; rfl)
    · obtain ⟨h1, h2, h3⟩ := fanOut_run go _ _ _ _ h
      exact ⟨[], by simp [h1], .halt (by unfold Halts; rw [hp]; trivial), by rw [h1, h2, hl, hc]; rfl, h3⟩
    · split at h
      · next h2 => exact hend (by unfold Halts; rw [hp]; exact Or.inl h2) (by cases h; rfl)
      · next h2 =>
        cases h0 : (outl cs i.target)[0]? with
        | none => rw [h0] at h; cases h
        | some o0 =>
          rw [h0] at h
          dsimp only at h
          cases hs : propagate cs n (Branch.start i.target o0) with
          | error e => rw [hs] at h; cases h
          | ok sub =>
            rw [hs] at h
            dsimp only at h
            have hsub : ∀ e ∈ flatAll (b.addSub o0 sub).subs, e ∈ flatAll b.subs ∨ Finished cs e := by
              intro e he
              rcases flatAll_set b.subs o0.label sub e he with he | he
              · exact Or.inl he
              · exact Or.inr ((start_finished go hs).2.2 e he)
            cases h1 : (outl cs i.target)[1]? with
            | none => rw [h1] at h; cases h
            | some o1 =>
              rw [h1] at h
              dsimp only at h
              split at h
              · next h3 =>
                exact hgo o1 (b.addSub o0 sub) rfl rfl hsub (by
                  unfold Pushes; rw [hp]
                  exact ⟨h2, h1, o0, n, sub, h0, hs, h3⟩) h
              · next h3 =>
                obtain ⟨e1, e2, e3⟩ := fanOut_run go _ _ _ _ h
                refine ⟨[], by rw [e1]; simp [Branch.addSub, Branch.conns], .halt (by
                  unfold Halts; rw [hp]
                  exact Or.inr ⟨o0, n, sub, h0, hs, h3⟩), ?_, fun e he => ?_⟩
                · rw [e1, e2]
                  change b.comps.getLast? = b.conns.getLast?.map _
                  rw [hl, hc]; rfl
                · rcases e3 e he with he | he
                  · exact hsub e he
                  · exact Or.inr he
    · split at h
      · next h2 => exact hend (by unfold Halts; rw [hp]; exact h2) (by cases h; rfl)
      · next h2 =>
        cases hq : paired cs i with
        | error e => rw [hq] at h; cases h
        | ok o =>
          rw [hq] at h
          exact hgo o b rfl rfl (fun e he => Or.inl he) (by unfold Pushes; rw [hp]; exact ⟨h2, hq⟩) h
    · split at h
      · next h2 =>
        cases hq : paired cs i with
        | error e => rw [hq] at h; cases h
        | ok o =>
          rw [hq] at h
          exact hgo o b rfl rfl (fun e he => Or.inl he) (by unfold Pushes; rw [hp]; exact ⟨h2, hq⟩) h
      · next h2 => exact hend (by unfold Halts; rw [hp]; exact h2) (by cases h; rfl)

theorem startBranches_run (cs : List ConnObj) (n : ℕ) (cp : CompObj) (os : List ConnObj) :
    ∀ d d', startBranches cs n cp os d = .ok d' → (∀ e ∈ flatAll d, Finished cs e) → ∀ e ∈ flatAll d', Finished cs e := by
  induction os with
  | nil => intro d d' h hd; cases h; exact hd
  | cons o os ih =>
    intro d d' h hd
    simp only [startBranches] at h
    cases hg : propagate cs n (Branch.start cp o) with
    | error e => rw [hg] at h; cases h
    | ok sub =>
      rw [hg] at h
      refine ih _ _ h (fun e he => ?_)
      rcases flatAll_set d o.label sub e he with he | he
      · exact hd e he
      · exact (start_finished (goRun cs n) hg).2.2 e he

theorem allBranches_run (cs : List ConnObj) (n : ℕ) (cps : List CompObj) :
    ∀ d d', allBranches cs n cps d = .ok d' → (∀ e ∈ flatAll d, Finished cs e) → ∀ e ∈ flatAll d', Finished cs e := by
  induction cps with
  | nil => intro d d' h hd; cases h; exact hd
  | cons cp cps ih =>
    intro d d' h hd
    simp only [allBranches] at h
    cases hg : startBranches cs n cp (cp.starts cs) d with
    | error e => rw [hg] at h; cases h
    | ok d1 =>
      rw [hg] at h
      exact ih _ _ h (startBranches_run cs n cp _ _ _ hg hd)

theorem createBranches_run {cs : List ConnObj} {comps : List CompObj} {n : ℕ} {d : Dict String Branch}
    (h : createBranches cs comps n = .ok d) : ∀ e ∈ flatAll d, Finished cs e := by
  simp only [createBranches] at h
  split at h
  · cases h
  · exact allBranches_run cs n _ _ _ h (by simp [flatAll])

/-! ### networks -/

/-- The network after the topology reduction: the topology checks passed, every connection is downstream of a branch start
(no circuit without cycle closer), `branches` is the result of the branch search, every connection had a mass flow container
of its own in `H`, the reduction of the mass flows succeeded and the connections now hold its containers. -/
structure Spec.Prepared {K : Type} (n : BalNet K) (branches : Dict String Branch) (mref : ℕ → Option ℕ) (H : MHeap K) :
    Prop where
  accepted : Accepted n.conns n.comps
  downstream : ∀ c ∈ n.conns, Downstream n.conns c
  ids : (n.conns.map ConnObj.id).Nodup
  search : createBranches n.conns n.comps n.conns.length = .ok branches
  own : Function.Injective H.ref
  reduced : (MHeap.presolve mref ((flatAll branches).map (fun e => e.1.map ConnObj.id)) H).2 = none
  holds : ∀ c ∈ n.conns, (n.port c).m = (MHeap.presolve mref ((flatAll branches).map (fun e => e.1.map ConnObj.id)) H).1.ref c.id

section
variable {K : Type}

theorem Spec.Prepared.found {n : BalNet K} {branches : Dict String Branch} {mref : ℕ → Option ℕ} {H : MHeap K}
    (h : Spec.Prepared n branches mref H) : ((flatAll branches).flatMap Prod.fst).Nodup ∧
      ∀ c, c ∈ (flatAll branches).flatMap Prod.fst ↔ c ∈ n.conns := by
  have hsrc : ∃ cp ∈ n.comps, cp.isBranchSource = true := by
    by_contra hne
    have : ∀ cp ∈ n.comps, cp.isBranchSource = false := fun cp hcp => by
      cases hb : cp.isBranchSource with
      | false => rfl
      | true => exact absurd ⟨cp, hcp, hb⟩ hne
    have hs := h.search
    rw [C15_no_source_rejected _ _ _ this] at hs
    cases hs
  obtain ⟨br, e1, e2, e3⟩ := C15_branch_search h.accepted hsrc n.conns.length le_rfl
  rw [h.search] at e1
  cases e1
  refine ⟨e2, fun c => (e3 c).trans ⟨fun hd => ?_, h.downstream c⟩⟩
  cases hd with
  | start hs _ => exact hs
  | next _ ho _ => exact ho

/-- connections share their mass flow exactly if one branch contains both -/
theorem Spec.Prepared.shared_iff {n : BalNet K} {branches : Dict String Branch} {mref : ℕ → Option ℕ} {H : MHeap K}
    (h : Spec.Prepared n branches mref H) {c d : ConnObj} (hc : c ∈ n.conns) (hd : d ∈ n.conns) :
    (n.port c).m = (n.port d).m ↔ ∃ e ∈ flatAll branches, c ∈ e.1 ∧ d ∈ e.1 := by
  obtain ⟨h1, h2⟩ := h.found
  have hinj : ∀ {x y}, x ∈ n.conns → y ∈ n.conns → x.id = y.id → x = y := fun hx hy e =>
    List.inj_on_of_nodup_map h.ids hx hy e
  have hmem : ∀ {e}, e ∈ flatAll branches → ∀ x ∈ e.1, x ∈ n.conns := fun he x hx =>
    (h2 x).mp (List.mem_flatMap.2 ⟨_, he, hx⟩)
  have hdisj : ((flatAll branches).map (fun e => e.1.map ConnObj.id)).flatten.Nodup := by
    have : ((flatAll branches).map (fun e => e.1.map ConnObj.id)).flatten
        = ((flatAll branches).flatMap Prod.fst).map ConnObj.id := by
      rw [List.map_flatMap, List.flatMap_def]
    rw [this]
    exact List.Nodup.map_on (fun x hx y hy e => hinj ((h2 x).mp hx) ((h2 y).mp hy) e) h1
  have hne : ∀ b ∈ (flatAll branches).map (fun e => e.1.map ConnObj.id), b ≠ [] := by
    intro b hb
    obtain ⟨e, he, rfl⟩ := List.mem_map.1 hb
    obtain ⟨⟨i, l, hil, _⟩, _⟩ := createBranches_run h.search e he
    simp [hil]
  rw [h.holds c hc, h.holds d hd, MHeap.C17_shared_iff mref _ H hdisj hne h.reduced h.own]
  constructor
  · rintro (e | ⟨b, hb, hcb, hdb⟩)
    · have := hinj hc hd e
      subst this
      obtain ⟨e, he, hce⟩ := List.mem_flatMap.1 ((h2 c).mpr hc)
      exact ⟨e, he, hce, hce⟩
    · obtain ⟨e, he, rfl⟩ := List.mem_map.1 hb
      obtain ⟨x, hx, ex⟩ := List.mem_map.1 hcb
      obtain ⟨y, hy, ey⟩ := List.mem_map.1 hdb
      rw [hinj (hmem he x hx) hc ex] at hx
      rw [hinj (hmem he y hy) hd ey] at hy
      exact ⟨e, he, hx, hy⟩
  · rintro ⟨e, he, hce, hde⟩
    exact Or.inr ⟨_, List.mem_map.2 ⟨e, he, rfl⟩, List.mem_map.2 ⟨c, hce, rfl⟩, List.mem_map.2 ⟨d, hde, rfl⟩⟩

/-- a connection and the one the search pushes after it share their mass flow -/
theorem Spec.Prepared.pushes {n : BalNet K} {branches : Dict String Branch} {mref : ℕ → Option ℕ} {H : MHeap K}
    (h : Spec.Prepared n branches mref H) {i o : ConnObj} (hi : i ∈ n.conns) (ho : o ∈ n.conns) (hp : Pushes n.conns i o) :
    (n.port i).m = (n.port o).m := by
  rw [h.shared_iff hi ho]
  obtain ⟨e, he, hie⟩ := List.mem_flatMap.1 ((h.found.2 i).mpr hi)
  refine ⟨e, he, hie, ?_⟩
  obtain ⟨⟨j, l, hjl, hr⟩, _⟩ := createBranches_run h.search e he
  rw [hjl] at hie ⊢
  obtain ⟨l', h1, h2⟩ := hr.suffix i hie
  cases h1 with
  | halt hh => exact absurd hh hp.not_halts
  | push hp' _ =>
    rw [hp.unique hp']
    exact h2.subset (by simp)

theorem through_pushes {cs : List ConnObj} {comps : List CompObj} (A : Accepted cs comps) {cp : CompObj} {k : Cls}
    (hk : Cls.ofName cp.ctype = some k) {p : ConnObj × ConnObj} (hp : p ∈ k.through (inl cs cp) (outl cs cp)) :
    p.1 ∈ cs ∧ p.2 ∈ cs ∧ Pushes cs p.1 p.2 := by
  have hz : p ∈ (inl cs cp).zip (outl cs cp) := by
    cases k <;> simp only [Cls.through] at hp <;>
      first | exact hp | exact List.mem_of_mem_take hp | simp at hp
  obtain ⟨i, o⟩ := p
  have hi := mem_inl.mp (List.of_mem_zip hz).1
  have ho := mem_outl.mp (List.of_mem_zip hz).2
  refine ⟨hi.1, ho.1, ?_⟩
  have hpass : i.target.pass = k.pass := by rw [hi.2]; unfold CompObj.pass; rw [hk]
  have hidx : ∀ j : ℕ, ((inl cs cp).zip (outl cs cp))[j]? = some (i, o) → (inl cs cp)[j]? = some i ∧ paired cs i = .ok o := by
    intro j hj
    rw [List.getElem?_zip_eq_some] at hj
    refine ⟨hj.1, ?_⟩
    unfold paired
    rw [hi.2, if_pos (mem_inl.mpr hi), idxOf_of_getElem? (A.inl_nodup _) hj.1, hj.2]
  have htake : ∀ m : ℕ, (i, o) ∈ ((inl cs cp).zip (outl cs cp)).take m → ∃ j < m, (inl cs cp)[j]? = some i := by
    intro m hm
    obtain ⟨j, hj⟩ := List.mem_iff_getElem?.1 hm
    rw [List.getElem?_take] at hj
    split at hj
    · next hjm => exact ⟨j, hjm, (hidx j hj).1⟩
    · cases hj
  obtain ⟨j, hj⟩ := List.mem_iff_getElem?.1 hz
  have hq := (hidx j hj).2
  have hdrop : (i, o) ∈ ((inl cs cp).zip (outl cs cp)).take 2 → i ∉ (inl cs i.target).drop 2 := by
    intro hm hd
    obtain ⟨a, ha, hai⟩ := htake 2 hm
    rw [hi.2] at hd
    obtain ⟨b, hb⟩ := List.mem_iff_getElem?.1 hd
    rw [List.getElem?_drop] at hb
    have e1 := idxOf_of_getElem? (A.inl_nodup cp) hai
    have e2 := idxOf_of_getElem? (A.inl_nodup cp) hb
    omega
  have hhead : (i, o) ∈ ((inl cs cp).zip (outl cs cp)).take 1 → (inl cs i.target)[0]? = some i := by
    intro hm
    obtain ⟨a, ha, hai⟩ := htake 1 hm
    obtain rfl : a = 0 := by omega
    rw [hi.2]; exact hai
  unfold Pushes
  rw [hpass]
  cases k <;> simp only [Cls.through] at hp <;> simp only [Cls.pass] <;>
    first
    | exact hq
    | exact ⟨hdrop hp, hq⟩
    | exact ⟨hhead hp, hq⟩
    | simp at hp

/-- The structure C95 demands is what the branch search and the topology reduction produce, for every network of any size. -/
theorem C95_reduced {n : BalNet K} {branches : Dict String Branch} {mref : ℕ → Option ℕ} {H : MHeap K}
    (h : Spec.Prepared n branches mref H) : Spec.Reduced n where
  nodup := h.accepted.distinct
  ends := h.accepted.listed
  through := by
    intro cp _ k hk p hp
    obtain ⟨h1, h2, h3⟩ := through_pushes h.accepted hk hp
    exact h.pushes h1 h2 h3
  drum := by
    intro cp hcp hk a b c d hi ho hbc
    have hpass : cp.pass = .drum := by unfold CompObj.pass; rw [hk]; rfl
    have ha := mem_inl.mp (show a ∈ inl n.conns cp by rw [hi]; simp)
    have hb := mem_inl.mp (show b ∈ inl n.conns cp by rw [hi]; simp)
    have hc := mem_outl.mp (show c ∈ outl n.conns cp by rw [ho]; simp)
    have hd := mem_outl.mp (show d ∈ outl n.conns cp by rw [ho]; simp)
    obtain ⟨k', hk', m, hin, hout⟩ := h.accepted.classes cp hcp
    rw [hk] at hk'
    cases hk'
    have hids := h.accepted.inl_ids hcp (by
      rw [hin]
      change List.Pairwise _ ["in1", "in2"]
      decide +kernel)
    rw [hi, hin] at hids
    simp only [List.map_cons, List.map_nil, Cls.inlets, List.cons.injEq, and_true] at hids
    -- the branch of the evaporator ends with `b`
    have hbh : Halts n.conns b := by
      unfold Halts; rw [hb.2, hpass]; exact Or.inl hids.2
    obtain ⟨e, he, hbe, hce⟩ := (h.shared_iff hb.1 hc.1).mp hbc
    obtain ⟨⟨j, l, hjl, hr⟩, _⟩ := createBranches_run h.search e he
    rw [hjl] at hbe hce
    obtain ⟨lb, r1, s1⟩ := hr.suffix b hbe
    obtain rfl : lb = [] := r1.unique (.halt hbh)
    obtain ⟨lc, r2, s2⟩ := hr.suffix c hce
    have hlast : (c :: lc).getLast? = some b := by
      obtain ⟨u, hu⟩ := s1
      obtain ⟨v, hv⟩ := s2
      have e1 : (j :: l).getLast? = some b := by rw [← hu]; simp
      rw [← e1, ← hv, List.getLast?_append]
      cases hx : (c :: lc).getLast? with
      | none => simp at hx
      | some x => rfl
    -- the branch of the feed goes on
    obtain ⟨e', he', hae⟩ := List.mem_flatMap.1 ((h.found.2 a).mpr ha.1)
    obtain ⟨⟨j', l', hjl', hr'⟩, _⟩ := createBranches_run h.search e' he'
    rw [hjl'] at hae
    obtain ⟨la, r3, s3⟩ := hr'.suffix a hae
    have key : Pushes n.conns a d := by
      cases r3 with
      | halt hh =>
        exfalso
        unfold Halts at hh
        rw [ha.2, hpass] at hh
        rcases hh with hh | ⟨o0, m, sub, h0, hs, hl⟩
        · rw [hids.1] at hh; exact absurd hh (by decide)
        · rw [ho] at h0
          cases h0
          obtain ⟨⟨l0, e1, e2⟩, e3, _⟩ := start_finished (goRun n.conns m) hs
          rw [e2.unique r2] at e1
          rw [e1, hlast] at e3
          exact hl (by rw [e3]; simp [hb.2])
      | push hp _ =>
        have hp' := hp
        unfold Pushes at hp'
        rw [ha.2, hpass] at hp'
        obtain ⟨_, h1, _⟩ := hp'
        rw [ho] at h1
        cases h1
        exact hp
    exact h.pushes ha.1 hd.1 key

end

section
variable {K : Type} [CommRing K]

/-- C95 for networks as the branch search and the topology reduction leave them: mass and energy balance of every
circuit. -/
theorem C95_network_partial (n : BalNet K) (branches : Dict String Branch) (mref : ℕ → Option ℕ) (H : MHeap K)
    (hp : Spec.Prepared n branches mref H) (F : PropFuncs K) (s : EqState K) (hb : Spec.NetBalanced n s)
    (hs : Spec.NetSolved F s n) (S : ConnObj → Bool) (hS : Spec.Circuit n S) :
    (Spec.overClass n .sink (fun cp => Spec.sumOn S (Spec.massOf n s) (inl n.conns cp))
      + Spec.overClass n .cycleCloser (fun cp =>
          Spec.sumOn S (Spec.massOf n s) (inl n.conns cp) - Spec.sumOn S (Spec.massOf n s) (outl n.conns cp))
      = Spec.overClass n .source (fun cp => Spec.sumOn S (Spec.massOf n s) (outl n.conns cp))) ∧
    (Spec.overClass n .sink (fun cp => Spec.sumOn S (Spec.energyOf n s) (inl n.conns cp))
      + Spec.overClass n .cycleCloser (fun cp =>
          Spec.sumOn S (Spec.energyOf n s) (inl n.conns cp) - Spec.sumOn S (Spec.energyOf n s) (outl n.conns cp))
      = Spec.overClass n .source (fun cp => Spec.sumOn S (Spec.energyOf n s) (outl n.conns cp))
        + (n.comps.map (Spec.netReceived n s S)).sum) :=
  ⟨C95_mass_partial n F s (C95_reduced hp) hb hs S hS, C95_energy_partial n F s (C95_reduced hp) hb hs S hS⟩

end

/-- C36 for drums in networks: the branch search passes the feed on to the steam outlet exactly if the evaporator returns to
the drum, so drums conserve mass and energy without further conditions. -/
theorem C36_drum_network {K : Type} [CommRing K] (n : BalNet K) (branches : Dict String Branch) (mref : ℕ → Option ℕ)
    (H : MHeap K) (hp : Spec.Prepared n branches mref H) (F : PropFuncs K) (s : EqState K) (hs : Spec.NetSolved F s n)
    (cp : CompObj) (hcp : cp ∈ n.comps) (hk : cp.ctype = "Drum") :
    ∃ a b c d, inl n.conns cp = [a, b] ∧ outl n.conns cp = [c, d] ∧
      s.mv (n.port a) + s.mv (n.port b) = s.mv (n.port c) + s.mv (n.port d) ∧
      s.mv (n.port a) * s.hv (n.port a) + s.mv (n.port b) * s.hv (n.port b)
        = s.mv (n.port c) * s.hv (n.port c) + s.mv (n.port d) * s.hv (n.port d) := by
  have hk' : Cls.ofName cp.ctype = some .drum := by rw [hk]; rfl
  obtain ⟨k, dev, h1, h2, h3⟩ := hs cp hcp
  rw [hk'] at h1
  cases h1
  match hi : inl n.conns cp, ho : outl n.conns cp with
  | [a, b], [c, d] =>
    rw [hi, ho] at h2
    simp only [devOf, List.map_cons, List.map_nil, Option.some.injEq] at h2
    subst h2
    have := C36_drum F s _ _ _ _ ((C95_reduced hp).drum cp hcp hk' a b c d hi ho) h3
    refine ⟨a, b, c, d, rfl, rfl, ?_, ?_⟩
    · simpa [Spec.MassBalance] using this.1
    · simpa [Spec.EnergyBalance] using this.2.1
  | [], _ => simp [devOf, hi] at h2
  | [_], _ => simp [devOf, hi] at h2
  | _ :: _ :: _ :: _, _ => simp [devOf, hi] at h2
  | [_, _], [] => simp [devOf, hi, ho] at h2
  | [_, _], [_] => simp [devOf, hi, ho] at h2
  | [_, _], _ :: _ :: _ :: _ => simp [devOf, hi, ho] at h2

/-! ### examples -/

/-- containers of the steam cycle before the reduction -/
def nbHeap : MHeap ℚ where
  box := fun _ => ⟨false, 0, 0, "kg / s"⟩
  ref := fun c => if c = 5 then 1 else if c = 1 then 5 else c
  tmp := fun _ => none

/-- The steam cycle heated by a gas stream is such a network. -/
theorem nb_prepared : ∃ branches, Spec.Prepared nbNet branches (fun _ => none) nbHeap := by
  have d0 : Downstream nbNet.conns nb0 := .start (by decide +kernel) trivial
  have d1 : Downstream nbNet.conns nb1 := .next d0 (by decide +kernel) ⟨rfl, 1, rfl, rfl⟩
  have d2 : Downstream nbNet.conns nb2 := .next d1 (by decide +kernel) ⟨rfl, 2, rfl, rfl⟩
  have d3 : Downstream nbNet.conns nb3 := .next d2 (by decide +kernel) ⟨rfl, 1, rfl, rfl⟩
  have d4 : Downstream nbNet.conns nb4 := .next d3 (by decide +kernel) ⟨rfl, 1, rfl, rfl⟩
  have d5 : Downstream nbNet.conns nb5 := .start (by decide +kernel) trivial
  have d6 : Downstream nbNet.conns nb6 := .next d5 (by decide +kernel) ⟨rfl, 1, rfl, rfl⟩
  refine ⟨_, ⟨⟨by decide +kernel, by decide +kernel, by decide +kernel, by decide +kernel, ?_, by decide +kernel,
    by decide +kernel⟩, ?_, by decide +kernel, rfl, ?_, by decide +kernel, by decide +kernel⟩⟩
  · intro cp hcp
    simp only [nbNet, List.mem_cons, List.not_mem_nil, or_false] at hcp
    rcases hcp with rfl | rfl | rfl | rfl | rfl | rfl | rfl
    · exact ⟨.cycleCloser, rfl, 0, rfl, rfl⟩
    · exact ⟨.pump, rfl, 0, rfl, rfl⟩
    · exact ⟨.heatExchanger, rfl, 0, rfl, rfl⟩
    · exact ⟨.turbine, rfl, 0, rfl, rfl⟩
    · exact ⟨.simpleHeatExchanger, rfl, 0, rfl, rfl⟩
    · exact ⟨.source, rfl, 0, rfl, rfl⟩
    · exact ⟨.sink, rfl, 0, rfl, rfl⟩
  · intro c hc
    simp only [nbNet, List.mem_cons, List.not_mem_nil, or_false] at hc
    rcases hc with rfl | rfl | rfl | rfl | rfl | rfl | rfl <;> assumption
  · intro a b h
    simp only [nbHeap] at h
    split_ifs at h <;> omega

/-- containers of the drum with its evaporator loop -/
def drumHeap : MHeap ℚ := ⟨fun _ => ⟨false, 0, 0, "kg / s"⟩, id, fun _ => none⟩

/-- A drum fed by a source: the mass flows of feed and steam are one container, those of the loop another one. -/
def drumNet : BalNet ℚ where
  conns := drumConns
  comps := drumComps
  port := fun c => ⟨if c.id = 1 ∨ c.id = 2 then 1 else 0, c.id, c.id, 0⟩
  react := nbReact

theorem drum_prepared : ∃ branches, Spec.Prepared drumNet branches (fun _ => none) drumHeap := by
  have d0 : Downstream drumConns ⟨0, "feed", exSrc, "out1", exDrum, "in1"⟩ := .start (by decide +kernel) trivial
  have d1 : Downstream drumConns ⟨1, "down", exDrum, "out1", exEva, "in1"⟩ := .next d0 (by decide +kernel) ⟨rfl, rfl⟩
  have d2 : Downstream drumConns ⟨2, "up", exEva, "out1", exDrum, "in2"⟩ := .next d1 (by decide +kernel) ⟨rfl, 1, rfl, rfl⟩
  have d3 : Downstream drumConns ⟨3, "steam", exDrum, "out2", exSnk, "in1"⟩ := .next d0 (by decide +kernel) ⟨rfl, rfl⟩
  refine ⟨_, ⟨⟨by decide +kernel, by decide +kernel, by decide +kernel, by decide +kernel, ?_, by decide +kernel,
    by decide +kernel⟩, ?_, by decide +kernel, rfl, fun a b h => h, by decide +kernel, by decide +kernel⟩⟩
  · intro cp hcp
    simp only [drumNet, drumComps, List.mem_cons, List.not_mem_nil, or_false] at hcp
    rcases hcp with rfl | rfl | rfl | rfl
    · exact ⟨.source, rfl, 0, rfl, rfl⟩
    · exact ⟨.drum, rfl, 0, rfl, rfl⟩
    · exact ⟨.simpleHeatExchanger, rfl, 0, rfl, rfl⟩
    · exact ⟨.sink, rfl, 0, rfl, rfl⟩
  · intro c hc
    simp only [drumNet, drumConns, List.mem_cons, List.not_mem_nil, or_false] at hc
    rcases hc with rfl | rfl | rfl | rfl <;> assumption

-- the hypotheses of `C95_network_partial` hold for the steam cycle
example : ∃ branches, Spec.Prepared nbNet branches (fun _ => none) nbHeap ∧ Spec.NetBalanced nbNet nbState ∧
    Spec.NetSolved nbProps nbState nbNet ∧ Spec.Circuit nbNet nbCycle :=
  nb_prepared.imp (fun _ h => ⟨h, nb_balanced, nb_solved, nb_closed.circuit⟩)

/-- property functions with saturated liquid at 10 and saturated vapour at 100 -/
def drumProps : PropFuncs ℚ := ⟨fun _ _ b => if b then 100 else 10, fun _ _ _ => 0, fun _ _ _ => 300, fun _ _ _ => 0, fun _ _ _ => 0⟩
/-- feed 2 at 20, circulation 5, returned at 42 -/
def drumState : EqState ℚ where
  val := fun v => match v with
    | .m i => if i = 0 then 2 else 5
    | .h i => if i = 0 then 20 else if i = 1 then 10 else if i = 2 then 42 else 100
    | _ => 1
  isVar := fun _ => true
  col := fun _ => none
  keys := fun _ => ["water"]
  fixed := fun _ => ["water"]
theorem drum_solved : Spec.NetSolved drumProps drumState drumNet := by
  have i : inl drumNet.conns exSrc = [] ∧ inl drumNet.conns exDrum = [⟨0, "feed", exSrc, "out1", exDrum, "in1"⟩, ⟨2, "up", exEva, "out1", exDrum, "in2"⟩] ∧ inl drumNet.conns exEva = [⟨1, "down", exDrum, "out1", exEva, "in1"⟩] ∧ inl drumNet.conns exSnk = [⟨3, "steam", exDrum, "out2", exSnk, "in1"⟩] := by decide +kernel
  have o : outl drumNet.conns exSrc = [⟨0, "feed", exSrc, "out1", exDrum, "in1"⟩] ∧ outl drumNet.conns exDrum = [⟨1, "down", exDrum, "out1", exEva, "in1"⟩, ⟨3, "steam", exDrum, "out2", exSnk, "in1"⟩] ∧ outl drumNet.conns exEva = [⟨2, "up", exEva, "out1", exDrum, "in2"⟩] ∧ outl drumNet.conns exSnk = [] := by decide +kernel
  obtain ⟨i1, i2, i3, i4⟩ := i
  obtain ⟨o1, o2, o3, o4⟩ := o
  intro cp hcp
  simp only [drumNet, drumComps, List.mem_cons, List.not_mem_nil, or_false] at hcp
  rcases hcp with rfl | rfl | rfl | rfl
  · exact ⟨.source, _, by decide +kernel, by rw [i1, o1]; rfl, ⟨[], by decide +kernel, by simp⟩⟩
  · exact ⟨.drum, _, by decide +kernel, by rw [i2, o2]; rfl, ⟨[0, 0, 0, 0, 0, 0], by decide +kernel, by simp⟩⟩
  · exact ⟨.simpleHeatExchanger, _, by decide +kernel, by rw [i3, o3]; rfl, ⟨[], by decide +kernel, by simp⟩⟩
  · exact ⟨.sink, _, by decide +kernel, by rw [i4, o4]; rfl, ⟨[], by decide +kernel, by simp⟩⟩

-- the hypotheses of `C36_drum_network` hold for the drum with its evaporator loop
example : ∃ branches, Spec.Prepared drumNet branches (fun _ => none) drumHeap ∧ Spec.NetSolved drumProps drumState drumNet ∧
    exDrum ∈ drumNet.comps ∧ exDrum.ctype = "Drum" :=
  drum_prepared.imp (fun _ h => ⟨h, drum_solved, by decide +kernel, rfl⟩)

end Tespy
