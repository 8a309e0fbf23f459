import Verif.Model.Modes
import Verif.Model.Connection
import Verif.Props.Presolve
/-
C31: switching between design and off-design calculations; C53: values specified by the user;
C61: design values in off-design calculations.
-/
namespace Tespy
open Modes

namespace Modes
variable {K : Type}

/-- the specification flag of a container -/
def St.flag (s : St K) (a : Addr) : Bool := (s.cont a).isSet

/-! ### what happens to the flags -/

theorem setFlags_isSet (o : ℕ → ℕ) (c : ℕ) (b : Bool) (ks : List String) (f : Addr → PCont K) (a : Addr) :
    (setFlags o c b f ks a).isSet = if ∃ k ∈ ks, addr o c k = a then b else (f a).isSet := by
  induction ks generalizing f with
  | nil => simp [setFlags]
  | cons k ks ih =>
    show (setFlags o c b (setFlag o c b f k) ks a).isSet = _
    rw [ih]
    by_cases h1 : ∃ k ∈ ks, addr o c k = a
    · rw [if_pos h1, if_pos (by obtain ⟨k', h, e⟩ := h1; exact ⟨k', List.mem_cons_of_mem _ h, e⟩)]
    · rw [if_neg h1]
      unfold setFlag
      by_cases h2 : addr o c k = a
      · rw [if_pos ⟨k, by simp, h2⟩, h2, Function.update_self]
      · rw [Function.update_of_ne (fun e => h2 e.symm), if_neg]
        rintro ⟨k', h, e⟩
        rcases List.mem_cons.1 h with rfl | h
        · exact h2 e
        · exact h1 ⟨k', h, e⟩

theorem unset_isSet (o : ℕ → ℕ) (c : ℕ) (ks : List String) (f : Addr → PCont K) (a : Addr) :
    (ks.foldl (unsetKey o c) f a).isSet
      = if ∃ k ∈ ks, addr o c k = a ∨ ∃ r, refKey k = some r ∧ addr o c r = a then false else (f a).isSet := by
  induction ks generalizing f with
  | nil => simp
  | cons k ks ih =>
    rw [List.foldl_cons, ih]
    by_cases h1 : ∃ k ∈ ks, addr o c k = a ∨ ∃ r, refKey k = some r ∧ addr o c r = a
    · rw [if_pos h1, if_pos (by obtain ⟨k', h, e⟩ := h1; exact ⟨k', List.mem_cons_of_mem _ h, e⟩)]
    · rw [if_neg h1]
      have key : (unsetKey o c f k a).isSet
          = if addr o c k = a ∨ ∃ r, refKey k = some r ∧ addr o c r = a then false else (f a).isSet := by
        unfold unsetKey
        cases hr : refKey k with
        | none =>
          have := setFlags_isSet o c false [k] f a
          simp only [setFlags, List.foldl_cons, List.foldl_nil, List.mem_singleton, exists_eq_left] at this
          simp only [this, reduceCtorEq, false_and, exists_false, or_false]
        | some r =>
          have := setFlags_isSet o c false [k, r] f a
          simp only [setFlags, List.foldl_cons, List.foldl_nil, List.mem_cons, List.not_mem_nil, or_false,
            exists_eq_or_imp, exists_eq_left] at this
          simp only [this, Option.some.injEq, exists_eq_left']
      rw [key]
      by_cases h2 : addr o c k = a ∨ ∃ r, refKey k = some r ∧ addr o c r = a
      · rw [if_pos h2, if_pos ⟨k, by simp, h2⟩]
      · rw [if_neg h2, if_neg]
        rintro ⟨k', h, e⟩
        rcases List.mem_cons.1 h with rfl | h
        · exact h2 e
        · exact h1 ⟨k', h, e⟩

theorem setKeys_isSet (o : ℕ → ℕ) (c : ℕ) (ks : List String) (f g : Addr → PCont K)
    (h : setKeys o c ks f = .ok g) (a : Addr) :
    (g a).isSet = if ∃ k ∈ ks, addr o c k = a then true else (f a).isSet := by
  induction ks generalizing f with
  | nil => cases h; simp
  | cons k ks ih =>
    unfold setKeys at h
    split at h
    · rw [ih _ h]
      by_cases h1 : ∃ k ∈ ks, addr o c k = a
      · rw [if_pos h1, if_pos (by obtain ⟨k', h, e⟩ := h1; exact ⟨k', List.mem_cons_of_mem _ h, e⟩)]
      · rw [if_neg h1]
        by_cases h2 : addr o c k = a
        · rw [if_pos ⟨k, by simp, h2⟩, h2, Function.update_self]
        · rw [Function.update_of_ne (fun e => h2 e.symm), if_neg]
          rintro ⟨k', h, e⟩
          rcases List.mem_cons.1 h with rfl | h
          · exact h2 e
          · exact h1 ⟨k', h, e⟩
    · cases h

theorem setDesign_fold_isSet (o : ℕ → ℕ) (c : ℕ) (d : String → Option K) (ks : List String)
    (f : Addr → PCont K) (a : Addr) : (ks.foldl (setDesign o c d) f a).isSet = (f a).isSet := by
  induction ks generalizing f with
  | nil => rfl
  | cons k ks ih =>
    rw [List.foldl_cons, ih]
    unfold setDesign
    by_cases h : a = addr o c k
    · subst h; rw [Function.update_self]
    · rw [Function.update_of_ne h]

theorem setProps_isSet (t : String → K → K) (f : Addr → PCont K) (a : Addr) :
    (setProps t f a).isSet = (f a).isSet := by
  unfold setProps; split <;> rfl

theorem solved_isSet (j : Job K) (a : Addr) (b : PCont K) : (solved j a b).isSet = b.isSet := by
  unfold solved; repeat' split
  all_goals rfl

theorem final_isSet (g : String → K → K) (N : Net) (o : ℕ → ℕ) (j : Job K) (f : Addr → PCont K) (a : Addr) :
    (writeVals g N (resetM N o (fun a => solved j a (f a))) a).isSet = (f a).isSet := by
  have h : (resetM N o (fun a => solved j a (f a)) a).isSet = (f a).isSet := by
    unfold resetM; split <;> simp only [solved_isSet]
  unfold writeVals; split <;> exact h

/-! ### specification of the flags -/

/-- Off-design: names in `design` and the references to these are unset, names in `offdesign` are
set; nothing happens with `local_design`. -/
def offFlag (q : CSet) (k : String) (old : Bool) : Bool :=
  if q.localDesign then old
  else if k ∈ q.offdesign then true
  else if k ∈ q.design ∨ ∃ v ∈ q.design, refKey v = some k then false
  else old

/-- Design: after the first off-design calculation names in `design` are set and names in
`offdesign` unset; the other way round for `local_offdesign` -/
def desFlag (q : CSet) (redesign : Bool) (k : String) (old : Bool) : Bool :=
  if q.localOffdesign then
    if k ∈ q.offdesign then true else if k ∈ q.design then false else old
  else if redesign then
    if k ∈ q.offdesign then false else if k ∈ q.design then true else old
  else old

theorem refKey_ne_m {k r : String} (h : refKey k = some r) : r ≠ "m" := by
  unfold refKey at h
  split at h <;> simp at h <;> subst h <;> decide

/-- connections whose lists contain the mass flow use their own container -/
def OwnM (N : Net) (o : ℕ → ℕ) (c : ℕ) : Prop :=
  "m" ∈ (N.cs c).design ∨ "m" ∈ (N.cs c).offdesign → o c = c

theorem addr_own {N : Net} {o : ℕ → ℕ} {c : ℕ} (h : OwnM N o c) {k : String}
    (hk : k ∈ (N.cs c).design ∨ k ∈ (N.cs c).offdesign) : addr o c k = (c, k) := by
  unfold addr
  split
  · rename_i e; subst e; rw [h hk]
  · rfl

theorem addr_ref {o : ℕ → ℕ} {c : ℕ} {k r : String} (h : refKey k = some r) : addr o c r = (c, r) := by
  unfold addr; rw [if_neg (refKey_ne_m h)]

theorem ex_addr {N : Net} {o : ℕ → ℕ} {c : ℕ} (h : OwnM N o c) (a : Addr) (l : List String)
    (hl : ∀ k ∈ l, k ∈ (N.cs c).design ∨ k ∈ (N.cs c).offdesign) :
    (∃ k ∈ l, addr o c k = a) ↔ a.1 = c ∧ a.2 ∈ l := by
  constructor
  · rintro ⟨k, hk, e⟩
    rw [addr_own h (hl k hk)] at e
    subst e
    exact ⟨rfl, hk⟩
  · rintro ⟨h1, h2⟩
    exact ⟨a.2, h2, by rw [addr_own h (hl _ h2), ← h1]⟩

theorem offdesignConn_flag {N : Net} {o : ℕ → ℕ} {c : ℕ} (h : OwnM N o c) {L L' : Loop K}
    (he : offdesignConn N o c L = .ok L') (a : Addr) :
    (L'.cont a).isSet = if a.1 = c then offFlag (N.cs c) a.2 (L.cont a).isSet else (L.cont a).isSet := by
  unfold offdesignConn at he
  by_cases hl : (N.cs c).localDesign = true
  · rw [if_pos hl] at he
    cases he
    simp only [assign, offFlag, hl, if_true, ite_self]
  · rw [if_neg hl] at he
    split at he
    · cases he
    · rename_i g hg
      cases he
      simp only [assign]
      rw [setKeys_isSet _ _ _ _ _ hg, unset_isSet]
      have e1 : (∃ k ∈ (N.cs c).offdesign, addr o c k = a) ↔ a.1 = c ∧ a.2 ∈ (N.cs c).offdesign :=
        ex_addr h a _ (fun k hk => Or.inr hk)
      have e2 : (∃ k ∈ (N.cs c).design, addr o c k = a ∨ ∃ r, refKey k = some r ∧ addr o c r = a) ↔
          a.1 = c ∧ (a.2 ∈ (N.cs c).design ∨ ∃ v ∈ (N.cs c).design, refKey v = some a.2) := by
        constructor
        · rintro ⟨k, hk, e | ⟨r, hr, e⟩⟩
          · rw [addr_own h (Or.inl hk)] at e; subst e; exact ⟨rfl, Or.inl hk⟩
          · rw [addr_ref hr] at e; subst e; exact ⟨rfl, Or.inr ⟨k, hk, hr⟩⟩
        · rintro ⟨h1, h2 | ⟨v, hv, hr⟩⟩
          · exact ⟨a.2, h2, Or.inl (by rw [addr_own h (Or.inl h2), ← h1])⟩
          · exact ⟨v, hv, Or.inr ⟨a.2, hr, by rw [addr_ref hr, ← h1]⟩⟩
      simp only [e1, e2, offFlag, hl]
      by_cases hc : a.1 = c <;> simp [hc]

theorem designConn_flag {N : Net} {o : ℕ → ℕ} {c : ℕ} (h : OwnM N o c) {rd : Bool}
    {file : ℕ → String → Option K} {L L' : Loop K} (he : designConn N o rd file c L = .ok L') (a : Addr) :
    (L'.cont a).isSet = if a.1 = c then desFlag (N.cs c) rd a.2 (L.cont a).isSet else (L.cont a).isSet := by
  have e1 : (∃ k ∈ (N.cs c).offdesign, addr o c k = a) ↔ a.1 = c ∧ a.2 ∈ (N.cs c).offdesign :=
    ex_addr h a _ (fun k hk => Or.inr hk)
  have e2 : (∃ k ∈ (N.cs c).design, addr o c k = a) ↔ a.1 = c ∧ a.2 ∈ (N.cs c).design :=
    ex_addr h a _ (fun k hk => Or.inl hk)
  unfold designConn at he
  by_cases hl : (N.cs c).localOffdesign = true
  · rw [if_pos hl] at he
    split at he
    · cases he
      simp only [assign, setDesigns, setDesign_fold_isSet, setFlags_isSet, e1, e2, desFlag, hl, if_true]
      by_cases hc : a.1 = c <;> simp [hc]
    · cases he
  · rw [if_neg hl] at he
    cases he
    cases rd
    · simp only [assign, Bool.false_eq_true, if_false, setDesign_fold_isSet, desFlag, hl, ite_self]
    · simp only [assign, if_true, setFlags_isSet, setDesign_fold_isSet, e1, e2, desFlag, hl]
      by_cases hc : a.1 = c <;> simp [hc]

theorem offdesignConns_flag {N : Net} {o : ℕ → ℕ} (cs : List ℕ) (hn : cs.Nodup) (h : ∀ c ∈ cs, OwnM N o c)
    {L L' : Loop K} (he : offdesignConns N o cs L = .ok L') (a : Addr) :
    (L'.cont a).isSet = if a.1 ∈ cs then offFlag (N.cs a.1) a.2 (L.cont a).isSet else (L.cont a).isSet := by
  induction cs generalizing L with
  | nil => cases he; simp
  | cons c cs ih =>
    unfold offdesignConns at he
    split at he
    · cases he
    · rename_i L1 h1
      rw [List.nodup_cons] at hn
      rw [ih hn.2 (fun c hc => h c (List.mem_cons_of_mem _ hc)) he,
        offdesignConn_flag (h c (by simp)) h1]
      by_cases hc : a.1 = c
      · rw [if_pos hc, if_neg (hc ▸ hn.1), if_pos (by simp [hc]), hc]
      · simp [hc]

theorem designConns_flag {N : Net} {o : ℕ → ℕ} (cs : List ℕ) (hn : cs.Nodup) (h : ∀ c ∈ cs, OwnM N o c)
    {rd : Bool} {file : ℕ → String → Option K} {L L' : Loop K}
    (he : designConns N o rd file cs L = .ok L') (a : Addr) :
    (L'.cont a).isSet = if a.1 ∈ cs then desFlag (N.cs a.1) rd a.2 (L.cont a).isSet else (L.cont a).isSet := by
  induction cs generalizing L with
  | nil => cases he; simp
  | cons c cs ih =>
    unfold designConns at he
    split at he
    · cases he
    · rename_i L1 h1
      rw [List.nodup_cons] at hn
      rw [ih hn.2 (fun c hc => h c (List.mem_cons_of_mem _ hc)) he, designConn_flag (h c (by simp)) h1]
      by_cases hc : a.1 = c
      · rw [if_pos hc, if_neg (hc ▸ hn.1), if_pos (by simp [hc]), hc]
      · simp [hc]

/-- Admissible lists for the mass flow: a connection with the mass flow in one of its lists is the
first one of its branch and the only one of the branch with the mass flow in its lists or
specified. -/
def MassFlowFirst (N : Net) (s : St K) : Prop :=
  ∀ c ∈ N.conns, "m" ∈ (N.cs c).design ∨ "m" ∈ (N.cs c).offdesign →
    ∃ b ∈ N.branches, b.head? = some c ∧ ∀ d ∈ b, d ≠ c → s.flag (d, "m") = false ∧
      "m" ∉ (N.cs d).design ∧ "m" ∉ (N.cs d).offdesign

theorem owner_first {N : Net} {s : St K} {o : ℕ → ℕ} (hd : N.branches.flatten.Nodup)
    (hne : ∀ b ∈ N.branches, b ≠ []) (ho : owner N s.cont = .ok o) (hm : MassFlowFirst N s) :
    ∀ c ∈ N.conns, OwnM N o c := by
  intro c hc hl
  obtain ⟨b, hb, hh, hrest⟩ := hm c hc hl
  unfold owner at ho
  split at ho
  · rename_i H hH
    cases ho
    have h := MHeap.C17_one_mass_flow_per_branch (mref N s.cont) N.branches
      (⟨fun i => ⟨(s.cont (i, "m")).isSet, (), (), ""⟩, id, fun _ => none⟩ : MHeap Unit) hd hne (by rw [hH])
    rw [hH] at h
    obtain ⟨ow, hs⟩ := h.2.2 b hb
    have hcb : c ∈ b := List.mem_of_mem_head? hh
    have hcow : H.ref c = ow := hs.shared c hcb
    show H.ref c = c
    rw [hcow]
    by_cases hf : (s.cont (c, "m")).isSet = true
    · exact (hs.onlySpec c hcb hf).symm
    · have : b.head? = some ow := by
        apply hs.first
        intro d hdb
        by_cases hdc : d = c
        · subst hdc; simpa [MHeap.specified] using hf
        · exact (hrest d hdb hdc).1
      rw [hh] at this
      exact (Option.some.inj this).symm
  · cases ho

/-- what a calculation does to the flags -/
theorem run_flag {toSI fromSI : String → K → K} {N : Net} {s s' : St K} {j : Job K}
    (hn : N.conns.Nodup) (hd : N.branches.flatten.Nodup) (hne : ∀ b ∈ N.branches, b ≠ [])
    (hm : MassFlowFirst N s) (h : run toSI fromSI N s j = .ok s') (a : Addr) :
    s'.flag a = if a.1 ∈ N.conns then
        (if j.offdesign then offFlag (N.cs a.1) a.2 (s.flag a) else desFlag (N.cs a.1) s.redesign a.2 (s.flag a))
      else s.flag a := by
  unfold run at h
  split at h
  · cases h
  · rename_i o L hL
    cases h
    show (writeVals fromSI N (resetM N o (fun a => solved j a (L.cont a))) a).isSet = _
    rw [final_isSet]
    unfold initialise at hL
    split at hL
    · cases hL
    · rename_i o' ho
      have own := owner_first hd hne ho hm
      cases hj : j.offdesign
      · simp only [hj, Bool.false_eq_true, if_false] at hL ⊢
        split at hL
        · cases hL
        · rename_i L1 h1
          cases hL
          rw [designConns_flag N.conns hn own h1]
          simp only [setProps_isSet, St.flag]
      · simp only [hj, if_true] at hL ⊢
        split at hL
        · cases hL
        · split at hL
          · cases hL
          · rename_i L1 h1
            cases hL
            rw [offdesignConns_flag N.conns hn own h1]
            have e : ∀ cs : List ℕ, ∀ f : Addr → PCont K,
                (cs.foldl (fun f c => setDesigns o c (j.file c) f) f a).isSet = (f a).isSet := by
              intro cs
              induction cs with
              | nil => intro f; rfl
              | cons c cs ih => intro f; rw [List.foldl_cons, ih, setDesigns, setDesign_fold_isSet]
            cases newDesign N s j.path <;>
              simp only [Bool.false_eq_true, if_true, if_false, e, setProps_isSet, St.flag]

theorem run_redesign {toSI fromSI : String → K → K} {N : Net} {s s' : St K} {j : Job K}
    (h : run toSI fromSI N s j = .ok s') : s'.redesign = (s.redesign || j.offdesign) := by
  unfold run at h
  split at h
  · cases h
  · cases h; rfl

/-- the condition on the mass flow stays true -/
theorem run_massFlowFirst {toSI fromSI : String → K → K} {N : Net} {s s' : St K} {j : Job K}
    (hn : N.conns.Nodup) (hd : N.branches.flatten.Nodup) (hne : ∀ b ∈ N.branches, b ≠ [])
    (hm : MassFlowFirst N s) (h : run toSI fromSI N s j = .ok s') : MassFlowFirst N s' := by
  intro c hc hl
  obtain ⟨b, hb, hh, hrest⟩ := hm c hc hl
  refine ⟨b, hb, hh, fun d hdb hdc => ?_⟩
  obtain ⟨h1, h2, h3⟩ := hrest d hdb hdc
  refine ⟨?_, h2, h3⟩
  rw [run_flag hn hd hne hm h]
  have hr : ∀ v : String, refKey v ≠ some "m" := fun v hv => refKey_ne_m hv rfl
  simp [offFlag, desFlag, h1, h2, h3, hr]

end Modes

variable {K : Type}

/-- C31, what an off-design calculation does: for connections without `local_design` the names in
`design` (and references to these) are unset, the names in `offdesign` are set, all other flags stay;
connections with `local_design` are not changed. -/
theorem C31_offdesign_flags {toSI fromSI : String → K → K} {N : Net} {s s' : St K} {j : Job K}
    (hn : N.conns.Nodup) (hd : N.branches.flatten.Nodup) (hne : ∀ b ∈ N.branches, b ≠ [])
    (hm : MassFlowFirst N s) (hj : j.offdesign = true) (h : run toSI fromSI N s j = .ok s') :
    ∀ c ∈ N.conns, ∀ k,
      ((N.cs c).localDesign = false → k ∈ (N.cs c).offdesign → s'.flag (c, k) = true) ∧
      ((N.cs c).localDesign = false → k ∉ (N.cs c).offdesign → k ∈ (N.cs c).design →
        s'.flag (c, k) = false) ∧
      ((N.cs c).localDesign = false → k ∉ (N.cs c).offdesign → ∀ v ∈ (N.cs c).design,
        refKey v = some k → s'.flag (c, k) = false) ∧
      (k ∉ (N.cs c).offdesign → k ∉ (N.cs c).design → (∀ v ∈ (N.cs c).design, refKey v ≠ some k) →
        s'.flag (c, k) = s.flag (c, k)) ∧
      ((N.cs c).localDesign = true → s'.flag (c, k) = s.flag (c, k)) := by
  intro c hc k
  rw [run_flag hn hd hne hm h, if_pos hc, hj, if_pos rfl]
  simp only [offFlag]
  refine ⟨fun h1 h2 => by simp [h1, h2], fun h1 h2 h3 => by simp [h1, h2, h3],
    fun h1 h2 v hv hr => ?_, fun h1 h2 h3 => ?_, fun h1 => by simp [h1]⟩
  · rw [if_neg (by simp [h1]), if_neg h2, if_pos (Or.inr ⟨v, hv, hr⟩)]
  · have hno : ¬ (k ∈ (N.cs c).design ∨ ∃ v ∈ (N.cs c).design, refKey v = some k) := by
      rintro (h | ⟨v, hv, hr⟩)
      · exact h2 h
      · exact h3 v hv hr
    rw [if_neg h1, if_neg hno, ite_self]

/-- C31 for connections (partial): design calculation, any number of off-design calculations, design
calculation. If in the beginning the names in `design` are specified and the names in `offdesign` are
not, a reference to a property in `design` is specified only if it is in `design` as well, and the
mass flow is in a list only of the first connection of a branch, then all flags are as after the
first calculation. -/
theorem C31_connections_partial {toSI fromSI : String → K → K} {N : Net} {s0 s1 s2 s3 : St K}
    {jd jd' : Job K} {offs : List (Job K)}
    (hn : N.conns.Nodup) (hd : N.branches.flatten.Nodup) (hne : ∀ b ∈ N.branches, b ≠ [])
    (hm : MassFlowFirst N s0) (h0 : s0.redesign = false)
    (hdes : ∀ c ∈ N.conns, (N.cs c).localOffdesign = false → ∀ k ∈ (N.cs c).design, s0.flag (c, k) = true)
    (hoff : ∀ c ∈ N.conns, (N.cs c).localOffdesign = false → ∀ k ∈ (N.cs c).offdesign, s0.flag (c, k) = false)
    (href : ∀ c ∈ N.conns, ∀ k ∈ (N.cs c).design, ∀ r, refKey k = some r → s0.flag (c, r) = true →
      r ∈ (N.cs c).design)
    (hjd : jd.offdesign = false) (hoffs : ∀ j ∈ offs, j.offdesign = true) (hjd' : jd'.offdesign = false)
    (h1 : run toSI fromSI N s0 jd = .ok s1) (h2 : runs toSI fromSI N s1 offs = .ok s2)
    (h3 : run toSI fromSI N s2 jd' = .ok s3) :
    ∀ a, s3.flag a = s1.flag a := by
  have hm1 := run_massFlowFirst hn hd hne hm h1
  have e1 : ∀ a, s1.flag a = if a.1 ∈ N.conns then desFlag (N.cs a.1) false a.2 (s0.flag a) else s0.flag a := by
    intro a; rw [run_flag hn hd hne hm h1, hjd, h0]; simp
  have hr1 : s1.redesign = false := by rw [run_redesign h1, h0, hjd]; rfl
  -- flags not in the lists are kept
  have step : ∀ (offs : List (Job K)) (s : St K), (∀ j ∈ offs, j.offdesign = true) → MassFlowFirst N s →
      runs toSI fromSI N s offs = .ok s2 →
      (∀ c ∈ N.conns, ∀ k, k ∉ (N.cs c).offdesign → k ∉ (N.cs c).design → s.flag (c, k) = s1.flag (c, k)) →
      (∀ a : Addr, a.1 ∉ N.conns → s.flag a = s1.flag a) →
      MassFlowFirst N s2 ∧ (s2.redesign = (s.redesign || !offs.isEmpty)) ∧
      (∀ c ∈ N.conns, ∀ k, k ∉ (N.cs c).offdesign → k ∉ (N.cs c).design → s2.flag (c, k) = s1.flag (c, k)) ∧
      (∀ a : Addr, a.1 ∉ N.conns → s2.flag a = s1.flag a) ∧ (offs = [] → s2 = s) := by
    intro offs
    induction offs with
    | nil => intro s _ hms hs hk ho; cases hs; exact ⟨hms, by simp, hk, ho, fun _ => rfl⟩
    | cons j js ih =>
      intro s hjs hms hs hk ho
      unfold runs at hs
      split at hs
      · cases hs
      · rename_i s' hs'
        have hj : j.offdesign = true := hjs j (by simp)
        have k1 : ∀ c ∈ N.conns, ∀ k, k ∉ (N.cs c).offdesign → k ∉ (N.cs c).design →
            s'.flag (c, k) = s1.flag (c, k) := by
          intro c hc k hk1 hk2
          rw [run_flag hn hd hne hms hs', if_pos hc, hj, if_pos rfl]
          simp only [offFlag]
          rw [if_neg hk1]
          split
          · exact hk c hc k hk1 hk2
          · split
            · rename_i hx
              rcases hx with hx | ⟨v, hv, hr⟩
              · exact absurd hx hk2
              · have : s0.flag (c, k) = false := by
                  by_contra hcon
                  exact hk2 (href c hc v hv k hr (by simpa using hcon))
                rw [e1, if_pos hc]
                simp [desFlag, hk1, hk2, this]
            · exact hk c hc k hk1 hk2
        have k2 : ∀ a : Addr, a.1 ∉ N.conns → s'.flag a = s1.flag a := by
          intro a ha
          rw [run_flag hn hd hne hms hs', if_neg ha]
          exact ho a ha
        obtain ⟨i1, i2, i3, i4, _⟩ := ih s' (fun j hj => hjs j (List.mem_cons_of_mem _ hj))
          (run_massFlowFirst hn hd hne hms hs') hs k1 k2
        refine ⟨i1, ?_, i3, i4, fun h => by cases h⟩
        rw [i2, run_redesign hs', hj]; simp
  obtain ⟨hm2, hr2, hk2, ho2, hnil⟩ := step offs s1 hoffs hm1 h2 (fun _ _ _ _ _ => rfl) (fun _ _ => rfl)
  intro a
  rw [run_flag hn hd hne hm2 h3]
  obtain ⟨c, k⟩ := a
  by_cases hc : c ∈ N.conns
  · rw [if_pos hc, hjd', hr2, hr1, e1, if_pos hc]
    simp only [Bool.false_eq_true, if_false, Bool.false_or, desFlag]
    have hx := hk2 c hc k
    rw [e1, if_pos hc] at hx
    simp only [desFlag, Bool.false_eq_true, if_false] at hx
    cases hl : (N.cs c).localOffdesign
    · simp only [hl, Bool.false_eq_true, if_false] at hx ⊢
      cases offs with
      | nil =>
        rw [hnil rfl, e1, if_pos hc]
        simp [desFlag, hl]
      | cons j js =>
        simp only [List.isEmpty_cons, Bool.not_false, if_true]
        split
        · rename_i hk; exact (hoff c hc hl k hk).symm
        · split
          · rename_i hk; exact (hdes c hc hl k hk).symm
          · rename_i hk1 hk2; exact hx hk1 hk2
    · simp only [hl, if_true] at hx ⊢
      split
      · rfl
      · split
        · rfl
        · rename_i hk1 hk2
          have := hx hk1 hk2
          rw [if_neg hk1, if_neg hk2] at this
          exact this
  · rw [if_neg hc]
    exact ho2 (c, k) hc

/-! ### counterexamples -/

/-- containers with some specifications -/
def exCont (spec : List Addr) : Addr → PCont ℚ := fun a => ⟨decide (a ∈ spec), some 1, some 1, none⟩

/-- new network with specifications -/
def exSt (spec : List Addr) : St ℚ := ⟨exCont spec, false, fun _ => true, true, none⟩

/-- a job with results: all values are 7, the design file has the value 3 -/
def exJob (off : Bool) : Job ℚ := ⟨off, if off then some "design" else none, fun _ _ => some 3, fun _ => some 7, fun _ => false⟩

/-- one branch of two connections, both in table order; lists of the second connection -/
def exNet (d od : List String) : Net :=
  ⟨[0, 1], [[0, 1]], fun c => if c = 1 then ⟨d, od, false, false, false⟩ else ⟨[], [], false, false, false⟩, fun _ => none⟩

/-- identity as unit conversion -/
def exU : String → ℚ → ℚ := fun _ x => x

/-- the flags of some containers and the variables found by the next initialisation -/
def exFlags (r : PyRes (St ℚ)) (as : List Addr) : Option (List Bool) :=
  r.toOption.map (fun s => as.map s.flag)

/-- variables of the connections in a calculation -/
def exVars (N : Net) (r : PyRes (St ℚ)) (j : Job ℚ) : Option (List Addr) :=
  r.toOption.bind (fun s => (initialise exU N s j).toOption.map (fun x => x.2.vars))

/-- The hypotheses of the partial theorem are met: pressure in `design`, volumetric flow in
`offdesign` of the second connection, mass flow in `design` of the first one. -/
example : let N : Net := { exNet ["p"] ["v"] with
      cs := fun c => if c = 1 then ⟨["p"], ["v"], false, false, false⟩ else ⟨["m"], [], false, false, false⟩ }
    let s0 := exSt [(0, "m"), (1, "p"), (0, "T")]
    MassFlowFirst N s0 ∧
    exFlags (runs exU exU N s0 [exJob false, exJob true]) [(0, "m"), (1, "p"), (1, "v"), (0, "T")]
      = some [false, false, true, true] ∧
    exFlags (runs exU exU N s0 [exJob false, exJob true, exJob true, exJob false])
      [(0, "m"), (1, "p"), (1, "v"), (0, "T")] = some [true, true, false, true] := by
  refine ⟨?_, by decide +kernel, by decide +kernel⟩
  · intro c hc hl
    have hc' : c = 0 ∨ c = 1 := by simpa [exNet] using hc
    rcases hc' with rfl | rfl
    · exact ⟨[0, 1], by simp [exNet], rfl, fun d hd hne => by
        have : d = 1 := by
          rcases List.mem_cons.1 hd with rfl | hd
          · exact absurd rfl hne
          · simpa using hd
        subst this
        decide +kernel⟩
    · simp at hl

/-- C31 fails if the mass flow is in `design` of a connection which is not the first of its branch:
after the off-design calculation the specification is found at the other connection, and the second
design calculation has one more variable than the first although nothing was changed by the user. -/
theorem C31_mass_flow_false :
    let N := exNet ["m"] []
    let s0 := exSt [(1, "m")]
    exFlags (runs exU exU N s0 [exJob false]) [(0, "m"), (1, "m")] = some [false, true] ∧
    exFlags (runs exU exU N s0 [exJob false, exJob true, exJob false]) [(0, "m"), (1, "m")] = some [true, false] ∧
    exVars N (.ok s0) (exJob false) = some [(0, "p"), (0, "h"), (1, "p"), (1, "h")] ∧
    exVars N (runs exU exU N s0 [exJob false, exJob true]) (exJob false)
      = some [(0, "m"), (0, "p"), (0, "h"), (1, "p"), (1, "h")] := by
  refine ⟨?_, ?_, ?_, ?_⟩ <;> decide +kernel

/-- C31 fails for a reference: with `design=['T']` the specified reference `T_ref` is unset in the
off-design calculation; the next design calculation sets `T` instead. -/
theorem C31_reference_false :
    let N := exNet ["T"] []
    let s0 := exSt [(1, "T_ref")]
    exFlags (runs exU exU N s0 [exJob false]) [(1, "T"), (1, "T_ref")] = some [false, true] ∧
    exFlags (runs exU exU N s0 [exJob false, exJob true, exJob false]) [(1, "T"), (1, "T_ref")]
      = some [true, false] := by
  refine ⟨?_, ?_⟩ <;> decide +kernel

/-- C31 fails for names in `design` which were not specified and names in `offdesign` which were. -/
theorem C31_unspecified_false :
    let N := exNet ["p"] ["x"]
    let s0 := exSt [(1, "x")]
    exFlags (runs exU exU N s0 [exJob false]) [(1, "p"), (1, "x")] = some [false, true] ∧
    exFlags (runs exU exU N s0 [exJob false, exJob true, exJob false]) [(1, "p"), (1, "x")]
      = some [true, false] := by
  refine ⟨?_, ?_⟩ <;> decide +kernel

/-- A list which `set_attr` accepts may make every off-design calculation fail: references and the
fluid balance have no design value. -/
theorem C31_offdesign_list_error {toSI fromSI : String → K → K} {N : Net} {s : St K} {j : Job K}
    (hj : j.offdesign = true) (c : ℕ) (hc : c ∈ N.conns) (hl : (N.cs c).localDesign = false)
    (k : String) (hk : k ∈ (N.cs c).offdesign) (hp : k ∉ propKeys) :
    ∀ s', run toSI fromSI N s j ≠ .ok s' := by
  have key : ∀ (o : ℕ → ℕ) (ks : List String) (f g : Addr → PCont K), k ∈ ks → setKeys o c ks f ≠ .ok g := by
    intro o ks
    induction ks with
    | nil => intro f g h; cases h
    | cons x ks ih =>
      intro f g h
      unfold setKeys
      split
      · rename_i hx
        rcases List.mem_cons.1 h with rfl | h
        · exact absurd hx hp
        · exact ih _ _ h
      · intro h; cases h
  have loop : ∀ (o : ℕ → ℕ) (cs : List ℕ) (L L' : Loop K), c ∈ cs → offdesignConns N o cs L ≠ .ok L' := by
    intro o cs
    induction cs with
    | nil => intro L L' h; cases h
    | cons x cs ih =>
      intro L L' h he
      unfold offdesignConns at he
      split at he
      · cases he
      · rename_i L1 h1
        rcases List.mem_cons.1 h with rfl | h
        · unfold offdesignConn at h1
          rw [if_neg (by simp [hl])] at h1
          split at h1
          · cases h1
          · rename_i g hg
            exact key o _ _ g hk hg
        · exact ih _ _ h he
  intro s' h
  unfold run at h
  split at h
  · cases h
  · rename_i o L hL
    unfold initialise at hL
    split at hL
    · cases hL
    · simp only [hj, if_true] at hL
      split at hL
      · cases hL
      · split at hL
        · cases hL
        · rename_i L1 h1
          exact loop _ _ _ _ hc h1

example : "T_ref" ∈ propertyData ∧ "T_ref" ∉ propKeys := by decide +kernel
end Tespy
