import Verif.Props.Modes
import Verif.Props.EqCount
/-
C31 for components and for values; C53: values specified by the user; C61: design values in
off-design calculations; C62: variables of components in off-design calculations.
-/
namespace Tespy
open Modes

namespace Modes

/-! ### components -/

/-- the parameters `ps` with flags `φ` -/
def withFlags (ps : List PParam) (φ : PParam → Bool) : List PParam :=
  ps.map (fun p => { p with isSet := φ p })

theorem setParams_withFlags (b : Bool) (names : List String) (ps : List PParam) (φ : PParam → Bool) :
    setParams b names (withFlags ps φ) = withFlags ps (fun p => if p.name ∈ names then b else φ p) := by
  unfold setParams withFlags
  rw [List.map_map]
  apply List.map_congr_left
  intro p _
  simp only [Function.comp]
  split <;> rfl

theorem flagOf_withFlags (ps : List PParam) (φ ψ : PParam → Bool) (e : String)
    (h : ∀ p ∈ ps, p.name = e → φ p = ψ p) : flagOf (withFlags ps φ) e = flagOf (withFlags ps ψ) e := by
  induction ps with
  | nil => rfl
  | cons p ps ih =>
    have ih' := ih (fun q hq => h q (List.mem_cons_of_mem _ hq))
    simp only [flagOf, withFlags, List.map_cons, List.find?_cons] at ih' ⊢
    by_cases hp : p.name = e
    · simp [hp, h p (by simp) hp]
    · simp only [hp, decide_false]
      exact ih'

theorem groupSet_withFlags (ps : List PParam) (φ ψ : PParam → Bool) (es : List String)
    (h : ∀ e ∈ es, ∀ p ∈ ps, p.name = e → φ p = ψ p) :
    groupSet (withFlags ps φ) es = groupSet (withFlags ps ψ) es := by
  unfold groupSet
  rw [Bool.eq_iff_iff, List.all_eq_true, List.all_eq_true]
  constructor
  · intro h1 e he; rw [← flagOf_withFlags ps φ ψ e (h e he)]; exact h1 e he
  · intro h1 e he; rw [flagOf_withFlags ps φ ψ e (h e he)]; exact h1 e he

theorem wf_withFlags {ps : List PParam} (hw : Spec.WellFormed ps) (φ : PParam → Bool) :
    Spec.WellFormed (withFlags ps φ) := by
  constructor
  · have : (withFlags ps φ).map (·.name) = ps.map (·.name) := by
      simp [withFlags, List.map_map, Function.comp_def]
    rw [this]; exact hw.nodup
  · intro p hp hk e he q hq hn
    obtain ⟨p0, hp0, rfl⟩ := List.mem_map.1 hp
    obtain ⟨q0, hq0, rfl⟩ := List.mem_map.1 hq
    exact hw.flat p0 hp0 hk e he q0 hq0 hn

/-- flags after preprocessing -/
def prepFlags (ps : List PParam) (φ : PParam → Bool) (p : PParam) : Bool :=
  if p.kind = .gcp then groupSet (withFlags ps φ) p.elements else φ p

theorem prep_params {ps : List PParam} (hw : Spec.WellFormed ps) (cs : List ℕ) (φ : PParam → Bool) :
    (preprocess cs (withFlags ps φ)).params = withFlags ps (prepFlags ps φ) := by
  rw [preprocess_eq cs _ (wf_withFlags hw φ)]
  simp only [withFlags, List.map_map]
  apply List.map_congr_left
  intro p _
  simp only [Function.comp, prepared, prepFlags, withFlags]
  split <;> rfl

theorem prep_congr {ps : List PParam} (hw : Spec.WellFormed ps) (cs : List ℕ) (φ ψ : PParam → Bool)
    (h : ∀ p ∈ ps, p.kind ≠ .gcp → φ p = ψ p) :
    preprocess cs (withFlags ps φ) = preprocess cs (withFlags ps ψ) := by
  have hpar : ∀ p ∈ ps, prepared (withFlags ps φ) { p with isSet := φ p }
      = prepared (withFlags ps ψ) { p with isSet := ψ p } := by
    intro p hp
    unfold prepared
    by_cases hk : p.kind = .gcp
    · simp only [hk, if_true]
      rw [groupSet_withFlags ps φ ψ p.elements
        (fun e he q hq hn => h q hq (hw.flat p hp hk e he q hq hn))]
    · simp only [hk, if_false, h p hp hk]
  rw [preprocess_eq cs _ (wf_withFlags hw φ), preprocess_eq cs _ (wf_withFlags hw ψ)]
  have e1 : (withFlags ps φ).map (prepared (withFlags ps φ))
      = (withFlags ps ψ).map (prepared (withFlags ps ψ)) := by
    conv_lhs => rw [withFlags, List.map_map]
    conv_rhs => rw [withFlags, List.map_map]
    exact List.map_congr_left hpar
  have e2 : ∀ χ : PParam → Bool, ((withFlags ps χ).filter (fun p => p.kind = .cp ∧ p.isVar)).map (·.name)
      = (ps.filter (fun p => p.kind = .cp ∧ p.isVar)).map (·.name) := by
    intro χ
    simp only [withFlags, List.filter_map, List.map_map]
    rfl
  have e3 : ∀ χ : PParam → Bool, ((withFlags ps χ).map (fun p => eqsOf (prepared (withFlags ps χ) p)))
      = ((withFlags ps χ).map (prepared (withFlags ps χ))).map eqsOf := by
    intro χ; rw [List.map_map]; rfl
  rw [e3 φ, e3 ψ, e1, e2 φ, e2 ψ]

theorem withFlags_self (ps : List PParam) : withFlags ps (·.isSet) = ps := by
  unfold withFlags; simp

end Modes

/-- C31 for components: design calculation, any number `n` of off-design calculations, design
calculation. Parameters in `design` are specified and parameters in `offdesign` not in the beginning
(groups of parameters excepted, their flags follow from the elements). Then the parameters, the number
of equations and the variables of the last calculation are those of the first. -/
theorem C31_components (q : CpSet) (cs : List ℕ) (ps : List PParam) (n : ℕ) (hw : Spec.WellFormed ps)
    (hdes : q.localOffdesign = false → ∀ p ∈ ps, p.kind ≠ .gcp → p.name ∈ q.design → p.isSet = true)
    (hoff : q.localOffdesign = false → ∀ p ∈ ps, p.kind ≠ .gcp → p.name ∈ q.offdesign → p.isSet = false) :
    designComp q (n ≠ 0) cs ((fun ps => (offdesignComp q cs ps).params)^[n] (designComp q false cs ps).params)
      = designComp q false cs ps := by
  -- flags of single parameters after the first calculation
  let φ1 : PParam → Bool := fun p =>
    if q.localOffdesign then (if p.name ∈ q.offdesign then true else if p.name ∈ q.design then false else p.isSet)
    else p.isSet
  have h1 : designComp q false cs ps = preprocess cs (withFlags ps φ1) := by
    unfold designComp
    conv_lhs => rw [← withFlags_self ps]
    cases hl : q.localOffdesign
    · simp only [Bool.false_eq_true, if_false, φ1, hl]
    · simp only [if_true, setParams_withFlags, φ1, hl]
  have hiter : ∀ n : ℕ, ∃ φ : PParam → Bool,
      (fun ps => (offdesignComp q cs ps).params)^[n] (designComp q false cs ps).params = withFlags ps φ ∧
      (∀ p ∈ ps, p.kind ≠ .gcp → p.name ∉ q.offdesign → p.name ∉ q.design → φ p = φ1 p) ∧
      (n = 0 → ∀ p ∈ ps, p.kind ≠ .gcp → φ p = φ1 p) := by
    intro n
    induction n with
    | zero =>
      refine ⟨prepFlags ps φ1, ?_, ?_, ?_⟩
      · rw [Function.iterate_zero, id, h1, prep_params hw]
      · intro p _ hk _ _; simp [prepFlags, hk]
      · intro _ p _ hk; simp [prepFlags, hk]
    | succ n ih =>
      obtain ⟨φ, hφ, hk, _⟩ := ih
      rw [Function.iterate_succ_apply', hφ]
      unfold offdesignComp
      cases hl : q.localDesign
      · simp only [Bool.false_eq_true, if_false, setParams_withFlags, prep_params hw]
        refine ⟨_, rfl, ?_, fun h => by cases h⟩
        intro p hp hkp ho hd
        simp only [prepFlags, hkp, ho, hd, if_false]
        exact hk p hp hkp ho hd
      · simp only [if_true, prep_params hw]
        refine ⟨_, rfl, ?_, fun h => by cases h⟩
        intro p hp hkp ho hd
        simp only [prepFlags, hkp, if_false]
        exact hk p hp hkp ho hd
  obtain ⟨φ, hφ, hk, h0⟩ := hiter n
  rw [hφ, h1]
  unfold designComp
  cases hl : q.localOffdesign
  · by_cases hn : n = 0
    · simp only [hn, ne_eq, not_true_eq_false, decide_false, Bool.false_eq_true, if_false]
      exact prep_congr hw cs _ _ (h0 hn)
    · simp only [ne_eq, hn, not_false_eq_true, decide_true, if_true, Bool.false_eq_true, if_false,
        setParams_withFlags]
      apply prep_congr hw
      intro p hp hkp
      simp only [φ1, hl, Bool.false_eq_true, if_false]
      split
      · rename_i h; exact (hoff hl p hp hkp h).symm
      · split
        · rename_i h; exact (hdes hl p hp hkp h).symm
        · rename_i ho hd
          rw [hk p hp hkp ho hd]
          simp only [φ1, hl, Bool.false_eq_true, if_false]
  · simp only [if_true, setParams_withFlags]
    apply prep_congr hw
    intro p hp hkp
    simp only [φ1, hl, if_true]
    split
    · rfl
    · split
      · rfl
      · rename_i ho hd
        rw [hk p hp hkp ho hd]
        simp only [φ1, hl, if_true, ho, hd, if_false]

/-- a pipe: `pr` in `design`, the group of the friction law by its elements, `kA_char` in
`offdesign` -/
def exDarcy : List PParam :=
  [⟨"pr", .cp, true, false, [], true, 1⟩, ⟨"L", .cp, true, false, [], false, 0⟩,
   ⟨"D", .cp, true, true, [], false, 0⟩, ⟨"ks", .cp, false, false, [], false, 0⟩,
   ⟨"darcy_group", .gcp, false, false, ["L", "D", "ks"], true, 1⟩,
   ⟨"kA_char", .gcc, false, false, [], true, 1⟩]

/-- lists of the pipe -/
def exDarcySet : CpSet := ⟨["pr"], ["kA_char", "ks"], false, false⟩

/-- The hypotheses are met by the pipe: the group is active in the off-design calculation only. -/
example : Spec.WellFormed exDarcy ∧
    (offdesignComp exDarcySet [2] exDarcy).params.map (·.isSet) = [false, true, true, true, true, true] ∧
    (designComp exDarcySet false [2] exDarcy).params.map (·.isSet) = [true, true, true, false, false, false] ∧
    (designComp exDarcySet true [2] (offdesignComp exDarcySet [2] exDarcy).params).params.map (·.isSet)
      = [true, true, true, false, false, false] := by
  refine ⟨⟨by decide, ?_⟩, by decide +kernel, by decide +kernel, by decide +kernel⟩
  intro p hp hk e he q hq hn
  have h : ∀ p ∈ exDarcy, p.kind = .gcp → ∀ e ∈ p.elements, ∀ q ∈ exDarcy, q.name = e → q.kind ≠ .gcp := by
    decide +kernel
  exact h p hp hk e he q hq hn

/-- C62 fails: the documentation says that in off-design calculations all component parameters
specified as variables are unset. The variables are the same in both modes, for all lists. -/
theorem C62_variables_false (q : CpSet) (cs : List ℕ) (ps : List PParam) (rd : Bool) (hw : Spec.WellFormed ps) :
    (offdesignComp q cs ps).vars = (designComp q rd cs ps).vars ∧
    (offdesignComp q cs ps).vars = (ps.filter (fun p => p.kind = .cp ∧ p.isVar)).map (·.name) := by
  have e2 : ∀ χ : PParam → Bool, (preprocess cs (withFlags ps χ)).vars
      = (ps.filter (fun p => p.kind = .cp ∧ p.isVar)).map (·.name) := by
    intro χ
    rw [preprocess_eq cs _ (wf_withFlags hw χ)]
    simp only [withFlags, List.filter_map, List.map_map]
    rfl
  have h1 : (offdesignComp q cs ps).vars = (ps.filter (fun p => p.kind = .cp ∧ p.isVar)).map (·.name) := by
    unfold offdesignComp
    conv_lhs => rw [← withFlags_self ps]
    cases q.localDesign
    · simp only [Bool.false_eq_true, if_false, setParams_withFlags]; exact e2 _
    · simp only [if_true]; exact e2 _
  refine ⟨h1.trans ?_, h1⟩
  unfold designComp
  conv_rhs => rw [← withFlags_self ps]
  cases q.localOffdesign
  · cases rd
    · simp only [Bool.false_eq_true, if_false]; exact (e2 _).symm
    · simp only [Bool.false_eq_true, if_false, if_true, setParams_withFlags]; exact (e2 _).symm
  · simp only [if_true, setParams_withFlags]; exact (e2 _).symm

example : (offdesignComp exDarcySet [2] exDarcy).vars = ["D"] := by decide +kernel

/-! ### values -/

namespace Modes
variable {K : Type}

/-- same content up to the design value -/
def Same (x y : PCont K) : Prop := x.isSet = y.isSet ∧ x.val = y.val ∧ x.valSI = y.valSI

theorem Same.rfl {x : PCont K} : Same x x := ⟨Eq.refl _, Eq.refl _, Eq.refl _⟩
theorem Same.trans {x y z : PCont K} (h : Same x y) (h' : Same y z) : Same x z :=
  ⟨h.1.trans h'.1, h.2.1.trans h'.2.1, h.2.2.trans h'.2.2⟩

theorem setFlags_other (o : ℕ → ℕ) (c : ℕ) (b : Bool) (ks : List String) (f : Addr → PCont K) (a : Addr)
    (h : ∀ k ∈ ks, addr o c k ≠ a) : setFlags o c b f ks a = f a := by
  induction ks generalizing f with
  | nil => rfl
  | cons k ks ih =>
    show setFlags o c b (setFlag o c b f k) ks a = f a
    rw [ih _ (fun k hk => h k (List.mem_cons_of_mem _ hk)), setFlag,
      Function.update_of_ne (fun e => h k (by simp) e.symm)]

theorem unset_other (o : ℕ → ℕ) (c : ℕ) (ks : List String) (f : Addr → PCont K) (a : Addr)
    (h : ∀ k ∈ ks, addr o c k ≠ a) (hr : ∀ v, refKey v ≠ some a.2) : ks.foldl (unsetKey o c) f a = f a := by
  induction ks generalizing f with
  | nil => rfl
  | cons k ks ih =>
    rw [List.foldl_cons, ih _ (fun k hk => h k (List.mem_cons_of_mem _ hk))]
    have h1 : a ≠ addr o c k := fun e => h k (by simp) e.symm
    unfold unsetKey
    cases hk : refKey k with
    | some r =>
      have h2 : a ≠ addr o c r := by
        rw [addr_ref hk]
        intro e
        exact hr k (by rw [hk, e])
      simp only
      rw [setFlag, Function.update_of_ne h2, setFlag, Function.update_of_ne h1]
    | none =>
      simp only
      rw [setFlag, Function.update_of_ne h1]

theorem setKeys_other (o : ℕ → ℕ) (c : ℕ) (ks : List String) (f g : Addr → PCont K) (a : Addr)
    (h : ∀ k ∈ ks, addr o c k ≠ a) (he : setKeys o c ks f = .ok g) : g a = f a := by
  induction ks generalizing f with
  | nil => cases he; rfl
  | cons k ks ih =>
    unfold setKeys at he
    split at he
    · rw [ih _ (fun k hk => h k (List.mem_cons_of_mem _ hk)) he,
        Function.update_of_ne (fun e => h k (by simp) e.symm)]
    · cases he

theorem setDesign_fold_same (o : ℕ → ℕ) (c : ℕ) (d : String → Option K) (ks : List String)
    (f : Addr → PCont K) (a : Addr) : Same (ks.foldl (setDesign o c d) f a) (f a) := by
  induction ks generalizing f with
  | nil => exact Same.rfl
  | cons k ks ih =>
    rw [List.foldl_cons]
    refine (ih _).trans ?_
    unfold setDesign
    by_cases h : a = addr o c k
    · subst h; rw [Function.update_self]; exact ⟨Eq.refl _, Eq.refl _, Eq.refl _⟩
    · rw [Function.update_of_ne h]; exact Same.rfl

/-- no list of a connection refers to the container -/
def Unlisted (N : Net) (o : ℕ → ℕ) (a : Addr) (c : ℕ) : Prop :=
  ∀ k, k ∈ (N.cs c).design ∨ k ∈ (N.cs c).offdesign → addr o c k ≠ a

theorem offdesignConns_other {N : Net} {o : ℕ → ℕ} (cs : List ℕ) {L L' : Loop K} (a : Addr)
    (h : ∀ c ∈ cs, Unlisted N o a c) (hr : ∀ v, refKey v ≠ some a.2)
    (he : offdesignConns N o cs L = .ok L') : L'.cont a = L.cont a := by
  induction cs generalizing L with
  | nil => cases he; rfl
  | cons c cs ih =>
    unfold offdesignConns at he
    split at he
    · cases he
    · rename_i L1 h1
      rw [ih (fun c hc => h c (List.mem_cons_of_mem _ hc)) he]
      have hc := h c (by simp)
      unfold offdesignConn at h1
      split at h1
      · cases h1; rfl
      · split at h1
        · cases h1
        · rename_i g hg
          cases h1
          simp only [assign]
          rw [setKeys_other _ _ _ _ _ _ (fun k hk => hc k (Or.inr hk)) hg,
            unset_other _ _ _ _ _ (fun k hk => hc k (Or.inl hk)) hr]

theorem designConns_other {N : Net} {o : ℕ → ℕ} {rd : Bool} {file : ℕ → String → Option K} (cs : List ℕ)
    {L L' : Loop K} (a : Addr) (h : rd = true ∨ (∃ c ∈ cs, (N.cs c).localOffdesign = true) →
      ∀ c ∈ cs, Unlisted N o a c)
    (he : designConns N o rd file cs L = .ok L') : Same (L'.cont a) (L.cont a) := by
  induction cs generalizing L with
  | nil => cases he; exact Same.rfl
  | cons c cs ih =>
    unfold designConns at he
    split at he
    · cases he
    · rename_i L1 h1
      refine (ih (fun hx c' hc' => h ?_ c' (List.mem_cons_of_mem _ hc')) he).trans ?_
      · rcases hx with hx | ⟨d, hd, hx⟩
        · exact Or.inl hx
        · exact Or.inr ⟨d, List.mem_cons_of_mem _ hd, hx⟩
      · unfold designConn at h1
        split at h1
        · rename_i hl
          have hc := h (Or.inr ⟨c, by simp, hl⟩) c (by simp)
          split at h1
          · cases h1
            simp only [assign]
            refine (setDesign_fold_same o c (file c) propKeys _ a).trans ?_
            rw [setFlags_other _ _ _ _ _ _ (fun k hk => hc k (Or.inr hk)),
              setFlags_other _ _ _ _ _ _ (fun k hk => hc k (Or.inl hk))]
            exact Same.rfl
          · cases h1
        · cases h1
          simp only [assign]
          split
          · rename_i hrd
            have hc := h (Or.inl hrd) c (by simp)
            rw [setFlags_other _ _ _ _ _ _ (fun k hk => hc k (Or.inr hk)),
              setFlags_other _ _ _ _ _ _ (fun k hk => hc k (Or.inl hk))]
            exact setDesign_fold_same _ _ _ _ _ _
          · exact setDesign_fold_same _ _ _ _ _ _

theorem foldDesigns_same (N : Net) (o : ℕ → ℕ) (file : ℕ → String → Option K) (cs : List ℕ)
    (f : Addr → PCont K) (a : Addr) : Same (cs.foldl (fun f c => setDesigns o c (file c) f) f a) (f a) := by
  induction cs generalizing f with
  | nil => exact Same.rfl
  | cons c cs ih =>
    rw [List.foldl_cons]
    exact (ih _).trans (setDesign_fold_same _ _ _ _ _ _)

/-- containers which no list refers to keep their content in the initialisation -/
theorem initialise_other {toSI : String → K → K} {N : Net} {s : St K} {j : Job K} {o : ℕ → ℕ} {L : Loop K}
    (a : Addr) (h : j.offdesign = true ∨ s.redesign = true ∨ (∃ c ∈ N.conns, (N.cs c).localOffdesign = true) →
      ∀ c ∈ N.conns, Unlisted N o a c)
    (hr : ∀ v, refKey v ≠ some a.2) (he : initialise toSI N s j = .ok (o, L)) :
    Same (L.cont a) (setProps toSI s.cont a) := by
  unfold initialise at he
  split at he
  · cases he
  · cases hj : j.offdesign
    · simp only [hj, Bool.false_eq_true, if_false] at he
      split at he
      · cases he
      · rename_i L1 h1
        cases he
        exact designConns_other N.conns a (fun hx => h (Or.inr hx)) h1
    · simp only [hj, if_true] at he
      split at he
      · cases he
      · split at he
        · cases he
        · rename_i L1 h1
          cases he
          rw [offdesignConns_other N.conns a (h (Or.inl hj)) hr h1]
          cases newDesign N s j.path
          · exact Same.rfl
          · exact foldDesigns_same N o j.file N.conns _ a

theorem refKey_notProp {v k : String} (h : refKey v = some k) : k ∉ propKeys := by
  unfold refKey at h
  split at h <;> simp at h <;> subst h <;> decide

/-- a connection with specified mass flow uses its own container -/
theorem owner_specified {N : Net} {f : Addr → PCont K} {o : ℕ → ℕ} (hd : N.branches.flatten.Nodup)
    (hne : ∀ b ∈ N.branches, b ≠ []) (ho : owner N f = .ok o) (c : ℕ) (hc : (f (c, "m")).isSet = true) :
    o c = c := by
  unfold owner at ho
  split at ho
  · rename_i H hH
    cases ho
    have h := MHeap.C17_one_mass_flow_per_branch (mref N f) N.branches
      (⟨fun i => ⟨(f (i, "m")).isSet, (), (), ""⟩, id, fun _ => none⟩ : MHeap Unit) hd hne (by rw [hH])
    rw [hH] at h
    by_cases hb : c ∈ N.branches.flatten
    · obtain ⟨b, hb, hcb⟩ := List.mem_flatten.1 hb
      obtain ⟨ow, hs⟩ := h.2.2 b hb
      have : H.ref c = ow := hs.shared c hcb
      rw [this]
      exact (hs.onlySpec c hcb hc).symm
    · exact h.2.1 c hb
  · cases ho

theorem initialise_owner {toSI : String → K → K} {N : Net} {s : St K} {j : Job K} {o : ℕ → ℕ} {L : Loop K}
    (he : initialise toSI N s j = .ok (o, L)) : owner N s.cont = .ok o := by
  unfold initialise at he
  split at he
  · cases he
  · rename_i o' ho
    rw [ho]
    split at he
    · split at he
      · cases he
      · simp only at he
        split at he
        · cases he
        · cases he; rfl
    · simp only at he
      split at he
      · cases he
      · cases he; rfl

end Modes

variable {K : Type}

/-- C53 (partial): a specified mass flow, pressure or enthalpy, and a specified vapour mass fraction
or difference to the boiling point (if the latter can be calculated at that connection), has the same
value after a completed calculation, whatever the solver found, in both modes, if it is in no list of
its connection (mass flow: in no list of any connection). Converting the value forth and back is
assumed to give the value (C01). -/
theorem C53_specified_partial {toSI fromSI : String → K → K} {N : Net} {s s' : St K} {j : Job K}
    (hd : N.branches.flatten.Nodup) (hne : ∀ b ∈ N.branches, b ≠ [])
    (h : run toSI fromSI N s j = .ok s') (c : ℕ) (hc : c ∈ N.conns) (k : String)
    (hk : k = "m" ∨ k = "p" ∨ k = "h" ∨ ((k = "x" ∨ k = "Td_bp") ∧ j.tdErr c = false))
    (hspec : s.flag (c, k) = true)
    (hround : ∀ x, (s.cont (c, k)).val = some x → fromSI k (toSI k x) = x)
    (hl : k ≠ "m" → k ∉ (N.cs c).design ∧ k ∉ (N.cs c).offdesign)
    (hlm : k = "m" → ∀ d ∈ N.conns, "m" ∉ (N.cs d).design ∧ "m" ∉ (N.cs d).offdesign) :
    s'.flag (c, k) = true ∧ (s'.cont (c, k)).val = (s.cont (c, k)).val ∧
    (s'.cont (c, k)).valSI = (s.cont (c, k)).val.map (toSI k) := by
  have hp : k ∈ propKeys := by
    rcases hk with rfl | rfl | rfl | ⟨rfl | rfl, _⟩ <;> decide
  unfold run at h
  split at h
  · cases h
  · rename_i o L hL
    have ho := initialise_owner hL
    have hun : ∀ d ∈ N.conns, Unlisted N o (c, k) d := by
      intro d hdc k' hk' e
      unfold addr at e
      split at e
      · rename_i hm
        subst hm
        have := hlm (congrArg Prod.snd e).symm d hdc
        rcases hk' with h | h
        · exact this.1 h
        · exact this.2 h
      · rename_i hm
        obtain ⟨rfl, rfl⟩ := Prod.mk.inj e
        have := hl hm
        rcases hk' with h | h
        · exact this.1 h
        · exact this.2 h
    have hsame := initialise_other (c, k) (fun _ => hun) (fun v hv => refKey_notProp hv hp) hL
    have hset : setProps toSI s.cont (c, k) = { s.cont (c, k) with valSI := (s.cont (c, k)).val.map (toSI k) } := by
      unfold setProps; rw [if_pos ⟨hspec, hp⟩]
    rw [hset] at hsame
    obtain ⟨e1, e2, e3⟩ := hsame
    simp only at e1 e2 e3
    have e1' : (L.cont (c, k)).isSet = true := e1.trans hspec
    -- the solver leaves it
    have hsolved : solved j (c, k) (L.cont (c, k)) = L.cont (c, k) := by
      unfold solved
      rcases hk with rfl | rfl | rfl | ⟨rfl | rfl, ht⟩
      · simp [e1']
      · simp [e1']
      · simp [e1']
      · simp [e1', ht]
      · simp [e1']
    have hreset : resetM N o (fun a => solved j a (L.cont a)) (c, k) = L.cont (c, k) := by
      unfold resetM
      split
      · rename_i hm
        have hm1 : k = "m" := hm.1
        subst hm1
        simp only [owner_specified hd hne ho c hspec, hsolved]
      · exact hsolved
    cases h
    refine ⟨?_, ?_, ?_⟩
    · show (writeVals fromSI N (resetM N o (fun a => solved j a (L.cont a))) (c, k)).isSet = true
      rw [final_isSet, e1']
    · show (writeVals fromSI N (resetM N o (fun a => solved j a (L.cont a))) (c, k)).val = _
      unfold writeVals
      rw [if_pos ⟨hp, hc⟩, hreset]
      simp only [e3, Option.map_map]
      cases hv : (s.cont (c, k)).val with
      | none => rfl
      | some x => simp [hround x hv]
    · show (writeVals fromSI N (resetM N o (fun a => solved j a (L.cont a))) (c, k)).valSI = _
      unfold writeVals
      rw [if_pos ⟨hp, hc⟩, hreset]
      exact e3

/-- C53 fails for temperature and volumetric flow: after every completed calculation the value is the
one which belongs to the last iterate of the solver, also if the user specified it. -/
theorem C53_temperature_false {toSI fromSI : String → K → K} {N : Net} {s s' : St K} {j : Job K}
    (h : run toSI fromSI N s j = .ok s') (c : ℕ) (hc : c ∈ N.conns) (k : String) (hk : k = "T" ∨ k = "v") :
    (s'.cont (c, k)).val = (j.res (c, k)).map (fromSI k) ∧
    (s'.flag (c, k) = true → (setProps toSI s'.cont (c, k)).valSI
      = ((j.res (c, k)).map (fromSI k)).map (toSI k)) := by
  have hv : (s'.cont (c, k)).val = (j.res (c, k)).map (fromSI k) := by
    unfold run at h
    split at h
    · cases h
    · rename_i o L hL
      cases h
      show (writeVals fromSI N (resetM N o (fun a => solved j a (L.cont a))) (c, k)).val = _
      unfold writeVals resetM solved
      rcases hk with rfl | rfl <;> simp [propKeys, hc]
  refine ⟨hv, ?_⟩
  intro hs
  have hp : k ∈ propKeys := by rcases hk with rfl | rfl <;> decide
  unfold setProps
  rw [if_pos ⟨hs, hp⟩, hv]

/-- The user specifies the temperature 1, the solver stops at its last iterate with the temperature
7: now 7 is specified and the next calculation, without any change by the user, solves for 7. -/
example : let N := exNet [] []
    (runs exU exU N (exSt [(1, "T")]) [exJob false]).toOption.map (fun s => (s.flag (1, "T"), (s.cont (1, "T")).val))
      = some (true, some 7) ∧ (exSt [(1, "T")]).flag (1, "T") = true ∧ ((exSt [(1, "T")]).cont (1, "T")).val = some 1 := by
  decide +kernel

/-- The hypotheses of the partial theorem are met: mass flow of the second connection. -/
example : let N := exNet [] []
    (runs exU exU N (exSt [(1, "m"), (1, "p")]) [exJob false, exJob true]).toOption.map
      (fun s => ((s.cont (1, "m")).val, (s.cont (1, "p")).val, (s.cont (0, "p")).val, (s.cont (0, "m")).val))
      = some (some 1, some 1, some 7, some 1) := by
  decide +kernel

/-- C31 fails for values: a pressure, enthalpy, temperature or volumetric flow in `design` is
specified again in the design calculation after an off-design calculation, but its value in this
calculation is the result of the off-design calculation. -/
theorem C31_value_false {toSI fromSI : String → K → K} {N : Net} {s s' : St K} {j j' : Job K}
    {o : ℕ → ℕ} {L : Loop K}
    (hn : N.conns.Nodup) (hd : N.branches.flatten.Nodup) (hne : ∀ b ∈ N.branches, b ≠ [])
    (hm : MassFlowFirst N s) (hj : j.offdesign = true) (hj' : j'.offdesign = false)
    (h : run toSI fromSI N s j = .ok s') (h' : initialise toSI N s' j' = .ok (o, L))
    (c : ℕ) (hc : c ∈ N.conns) (k : String) (hk : k = "p" ∨ k = "h" ∨ k = "T" ∨ k = "v")
    (hkd : k ∈ (N.cs c).design) (hko : k ∉ (N.cs c).offdesign)
    (hl : (N.cs c).localDesign = false) (hlo : (N.cs c).localOffdesign = false) :
    (L.cont (c, k)).isSet = true ∧ (L.cont (c, k)).valSI = j.res (c, k) := by
  have hkm : k ≠ "m" := by rcases hk with rfl | rfl | rfl | rfl <;> decide
  have hp : k ∈ propKeys := by rcases hk with rfl | rfl | rfl | rfl <;> decide
  have hf : s'.flag (c, k) = false := by
    rw [run_flag hn hd hne hm h, if_pos hc, hj]
    simp [offFlag, hl, hko, hkd]
  have hrd : s'.redesign = true := by rw [run_redesign h, hj]; simp
  have hm' := run_massFlowFirst hn hd hne hm h
  have hv : (s'.cont (c, k)).valSI = j.res (c, k) := by
    unfold run at h
    split at h
    · cases h
    · rename_i o1 L1 hL1
      cases h
      have hb : (L1.cont (c, k)).isSet = false := by
        have := hf
        simp only [St.flag, final_isSet] at this
        exact this
      show (writeVals fromSI N (resetM N o1 (fun a => solved j a (L1.cont a))) (c, k)).valSI = _
      unfold writeVals resetM solved
      rcases hk with rfl | rfl | rfl | rfl <;> simp [propKeys, hc, hb]
  -- the second initialisation only changes the flag
  have ho := initialise_owner h'
  have own := owner_first hd hne ho hm'
  unfold initialise at h'
  rw [ho] at h'
  simp only [hj', Bool.false_eq_true, if_false, hrd] at h'
  split at h'
  · cases h'
  · rename_i L1 h1
    cases h'
    refine ⟨?_, ?_⟩
    · rw [designConns_flag N.conns hn own h1, if_pos hc]
      simp [desFlag, hlo, hko, hkd]
    · have val : ∀ (cs : List ℕ) (L L' : Loop K), designConns N o true j'.file cs L = .ok L' →
          (L'.cont (c, k)).valSI = (L.cont (c, k)).valSI := by
        have fl : ∀ (d : ℕ) (b : Bool) (ks : List String) (f : Addr → PCont K),
            (setFlags o d b f ks (c, k)).valSI = (f (c, k)).valSI := by
          intro d b ks
          induction ks with
          | nil => intro f; rfl
          | cons k' ks ih =>
            intro f
            show (setFlags o d b (setFlag o d b f k') ks (c, k)).valSI = _
            rw [ih]
            unfold setFlag
            by_cases e : (c, k) = addr o d k'
            · rw [← e, Function.update_self]
            · rw [Function.update_of_ne e]
        intro cs
        induction cs with
        | nil => intro L L' he; cases he; rfl
        | cons d cs ih =>
          intro L L' he
          unfold designConns at he
          split at he
          · cases he
          · rename_i L2 h2
            rw [ih _ _ he]
            unfold designConn at h2
            split at h2
            · split at h2
              · cases h2
                simp only [assign, setDesigns]
                rw [(setDesign_fold_same _ _ _ _ _ _).2.2, fl, fl]
              · cases h2
            · cases h2
              simp only [assign, if_true]
              rw [fl, fl, (setDesign_fold_same _ _ _ _ _ _).2.2]
      rw [val _ _ _ h1]
      show (setProps toSI s'.cont (c, k)).valSI = _
      unfold setProps
      rw [if_neg (fun h => by rw [St.flag] at hf; rw [hf] at h; exact absurd h.1 (by simp)), hv]

/-! ### design values -/

namespace Modes

theorem setDesign_fold_design (o : ℕ → ℕ) (c : ℕ) (d : String → Option K) (ks : List String)
    (f : Addr → PCont K) (a : Addr) :
    (ks.foldl (setDesign o c d) f a).design = if ∃ k ∈ ks, addr o c k = a then d a.2 else (f a).design := by
  induction ks generalizing f with
  | nil => simp
  | cons k ks ih =>
    rw [List.foldl_cons, ih]
    by_cases h1 : ∃ k ∈ ks, addr o c k = a
    · rw [if_pos h1, if_pos (by obtain ⟨k', h, e⟩ := h1; exact ⟨k', List.mem_cons_of_mem _ h, e⟩)]
    · rw [if_neg h1]
      unfold setDesign
      by_cases h2 : addr o c k = a
      · rw [if_pos ⟨k, by simp, h2⟩, h2, Function.update_self]
        have : a.2 = k := by rw [← h2]; unfold addr; split <;> simp_all
        rw [this]
      · rw [Function.update_of_ne (fun e => h2 e.symm), if_neg]
        rintro ⟨k', h, e⟩
        rcases List.mem_cons.1 h with rfl | h
        · exact h2 e
        · exact h1 ⟨k', h, e⟩

theorem offdesignConns_design {N : Net} {o : ℕ → ℕ} (cs : List ℕ) {L L' : Loop K}
    (he : offdesignConns N o cs L = .ok L') (a : Addr) : (L'.cont a).design = (L.cont a).design := by
  have fl : ∀ (d : ℕ) (b : Bool) (f : Addr → PCont K) (k : String), (setFlag o d b f k a).design = (f a).design := by
    intro d b f k
    unfold setFlag
    by_cases e : a = addr o d k
    · subst e; rw [Function.update_self]
    · rw [Function.update_of_ne e]
  have un : ∀ (d : ℕ) (ks : List String) (f : Addr → PCont K), (ks.foldl (unsetKey o d) f a).design = (f a).design := by
    intro d ks
    induction ks with
    | nil => intro f; rfl
    | cons k ks ih =>
      intro f
      rw [List.foldl_cons, ih]
      unfold unsetKey
      cases refKey k with
      | some r => simp only [fl]
      | none => simp only [fl]
  have sk : ∀ (d : ℕ) (ks : List String) (f g : Addr → PCont K), setKeys o d ks f = .ok g →
      (g a).design = (f a).design := by
    intro d ks
    induction ks with
    | nil => intro f g h; cases h; rfl
    | cons k ks ih =>
      intro f g h
      unfold setKeys at h
      split at h
      · rw [ih _ _ h]
        by_cases e : a = addr o d k
        · subst e; rw [Function.update_self]
        · rw [Function.update_of_ne e]
      · cases h
  induction cs generalizing L with
  | nil => cases he; rfl
  | cons c cs ih =>
    unfold offdesignConns at he
    split at he
    · cases he
    · rename_i L1 h1
      rw [ih he]
      unfold offdesignConn at h1
      split at h1
      · cases h1; rfl
      · split at h1
        · cases h1
        · rename_i g hg
          cases h1
          simp only [assign]
          rw [sk _ _ _ _ hg, un]

theorem initialise_design {toSI : String → K → K} {N : Net} {s : St K} {j : Job K} {o : ℕ → ℕ} {L : Loop K}
    (hj : j.offdesign = true) (he : initialise toSI N s j = .ok (o, L)) (a : Addr) :
    (L.cont a).design = if newDesign N s j.path = true then
      (N.conns.foldl (fun f c => setDesigns o c (j.file c) f) (setProps toSI s.cont) a).design
      else (s.cont a).design := by
  have ho := initialise_owner he
  unfold initialise at he
  rw [ho] at he
  simp only [hj, if_true] at he
  split at he
  · cases he
  · split at he
    · cases he
    · rename_i L1 h1
      cases he
      rw [offdesignConns_design _ h1]
      cases newDesign N s j.path
      · simp only [Bool.false_eq_true, if_false]
        unfold setProps; split <;> rfl
      · simp only [if_true]

end Modes

/-- the values of the design file are consistent: connections of a branch have the same mass flow -/
def FileOK (N : Net) (file : ℕ → String → Option K) : Prop :=
  ∀ b ∈ N.branches, ∀ c ∈ b, ∀ d ∈ b, file c "m" = file d "m"

/-- C61 (partial): in the first off-design calculation after a design calculation or with another
`design_path` all connections have the design values of the file. -/
theorem C61_first_partial {toSI : String → K → K} {N : Net} {s : St K} {j : Job K} {o : ℕ → ℕ} {L : Loop K}
    (hd : N.branches.flatten.Nodup) (hne : ∀ b ∈ N.branches, b ≠ [])
    (hj : j.offdesign = true) (hnew : newDesign N s j.path = true) (hfile : FileOK N j.file)
    (he : initialise toSI N s j = .ok (o, L)) (c : ℕ) (hc : c ∈ N.conns) (k : String) (hk : k ∈ propKeys) :
    (L.cont (addr o c k)).design = j.file c k := by
  rw [initialise_design hj he, if_pos hnew]
  -- connections which refer to the same container have the same value
  have hsame : ∀ d, (∃ k' ∈ propKeys, addr o d k' = addr o c k) → j.file d (addr o c k).2 = j.file c k := by
    rintro d ⟨k', _, e⟩
    have ho := initialise_owner he
    by_cases hm : k = "m"
    · subst hm
      have e2 : (addr o c "m").2 = "m" := rfl
      have hk' : k' = "m" := by
        by_contra hne'
        have := congrArg Prod.snd e
        simp only [addr, hne', if_false, if_true] at this
      subst hk'
      have e1 : o d = o c := by
        have := congrArg Prod.fst e
        simpa [addr] using this
      rw [e2]
      unfold owner at ho
      split at ho
      · rename_i H hH
        cases ho
        have h := (MHeap.C17_shared_iff (mref N s.cont) N.branches
          (⟨fun i => ⟨(s.cont (i, "m")).isSet, (), (), ""⟩, id, fun _ => none⟩ : MHeap Unit) hd hne
          (by rw [hH]) Function.injective_id d c).1 (by rw [hH]; exact e1)
        rcases h with rfl | ⟨b, hb, h1, h2⟩
        · rfl
        · exact hfile b hb d h1 c h2
      · cases ho
    · have e2 : addr o c k = (c, k) := by simp [addr, hm]
      rw [e2] at e ⊢
      by_cases hk' : k' = "m"
      · subst hk'
        have := congrArg Prod.snd e
        simp only [addr, if_true] at this
        exact absurd this.symm hm
      · simp only [addr, hk', if_false, Prod.mk.injEq] at e
        rw [e.1]
  have fold : ∀ (cs : List ℕ) (f : Addr → PCont K),
      (c ∈ cs ∨ (f (addr o c k)).design = j.file c k) →
      (cs.foldl (fun f c => setDesigns o c (j.file c) f) f (addr o c k)).design = j.file c k := by
    intro cs
    induction cs with
    | nil =>
      rintro f (h | h)
      · cases h
      · exact h
    | cons d cs ih =>
      intro f h
      rw [List.foldl_cons]
      apply ih
      by_cases hx : ∃ k' ∈ propKeys, addr o d k' = addr o c k
      · right
        rw [setDesigns, setDesign_fold_design, if_pos hx]
        exact hsame d hx
      · rcases h with h | h
        · rcases List.mem_cons.1 h with rfl | h
          · exact absurd ⟨k, hk, rfl⟩ hx
          · exact Or.inl h
        · right
          rw [setDesigns, setDesign_fold_design, if_neg hx]
          exact h
  exact fold N.conns _ (Or.inl hc)

/-- C61 fails for the mass flow: first off-design calculation with the mass flow specified at the
second connection of the branch, then the user unsets it and another off-design calculation with the
same `design_path` starts: the design mass flow of both connections is nan, while all other design
values are there. -/
theorem C61_moved_false :
    let N := exNet [] []
    let s1 := runs exU exU N (exSt [(1, "m")]) [exJob false, exJob true]
    -- the user calls `c1.set_attr(m=None)`
    let s2 := s1.toOption.map (fun s => { s with cont := Function.update s.cont (1, "m") { s.cont (1, "m") with isSet := false } })
    (s2.bind (fun s => (initialise exU N s (exJob true)).toOption.map
      (fun x => [(x.2.cont (addr x.1 0 "m")).design, (x.2.cont (addr x.1 1 "m")).design, (x.2.cont (1, "p")).design])))
      = some [none, none, some 3] ∧
    -- while in the first off-design calculation they were there
    ((runs exU exU N (exSt [(1, "m")]) [exJob false]).toOption.bind (fun s =>
      (initialise exU N s (exJob true)).toOption.map
      (fun x => [(x.2.cont (addr x.1 0 "m")).design, (x.2.cont (addr x.1 1 "m")).design, (x.2.cont (1, "p")).design])))
      = some [some 3, some 3, some 3] := by
  refine ⟨?_, ?_⟩ <;> decide +kernel

/-- C61 (partial): in a further off-design calculation with the same `design_path` the design values
are the ones of the calculation before, if every connection uses the same containers. -/
theorem C61_kept_partial {toSI fromSI : String → K → K} {N : Net} {s s' : St K} {j j' : Job K}
    {o o' : ℕ → ℕ} {L L' : Loop K}
    (hj : j.offdesign = true) (hj' : j'.offdesign = true) (hpath : j'.path = j.path)
    (hloc : ∀ c ∈ N.conns, (N.cs c).localDesign = false)
    (h : initialise toSI N s j = .ok (o, L)) (hr : run toSI fromSI N s j = .ok s')
    (h' : initialise toSI N s' j' = .ok (o', L')) (c : ℕ) (k : String) (hsame : k = "m" → o' c = o c) :
    (L'.cont (addr o' c k)).design = (L.cont (addr o c k)).design := by
  have ha : addr o' c k = addr o c k := by
    unfold addr
    split
    · rename_i e; rw [hsame e]
    · rfl
  have hpath' : j.path.isSome = true := by
    unfold initialise at h
    split at h
    · cases h
    · simp only [hj, if_true] at h
      split at h
      · cases h
      · rename_i hp; simpa [Option.isNone_iff_eq_none, Option.isSome_iff_ne_none] using hp
  unfold run at hr
  rw [h] at hr
  simp only at hr
  cases hr
  have hnd : ∀ d ∈ N.conns, L.newDesign d = false := by
    have keep : ∀ (cs : List ℕ) (L L' : Loop K), offdesignConns N o cs L = .ok L' →
        (∀ d ∈ cs, (N.cs d).localDesign = false) →
        ∀ d, (d ∈ cs ∨ L.newDesign d = false) → L'.newDesign d = false := by
      intro cs
      induction cs with
      | nil =>
        rintro L L' he _ d (hd | hd)
        · cases hd
        · cases he; exact hd
      | cons x cs ih =>
        intro L L' he hl d hdd
        unfold offdesignConns at he
        split at he
        · cases he
        · rename_i L1 h1
          apply ih _ _ he (fun d hd => hl d (List.mem_cons_of_mem _ hd))
          unfold offdesignConn at h1
          rw [if_neg (by simp [hl x (by simp)])] at h1
          split at h1
          · cases h1
          · cases h1
            simp only [assign]
            by_cases hdx : d = x
            · right; rw [hdx, Function.update_self]
            · rw [Function.update_of_ne hdx]
              rcases hdd with hdd | hdd
              · exact Or.inl ((List.mem_cons.1 hdd).resolve_left hdx)
              · exact Or.inr hdd
    intro d hdc
    unfold initialise at h
    split at h
    · cases h
    · simp only [hj, if_true] at h
      split at h
      · cases h
      · split at h
        · cases h
        · rename_i L1 h1
          cases h
          exact keep _ _ _ h1 hloc d (Or.inl hdc)
  have hnew : newDesign N { cont := writeVals fromSI N (resetM N o (fun a => solved j a (L.cont a)))
                            redesign := s.redesign || j.offdesign, newDesign := L.newDesign
                            compNew := !j.offdesign, path := j.path } j'.path = false := by
    unfold newDesign
    rw [hpath, if_pos ⟨rfl, hpath'⟩]
    simp only [hj, Bool.not_true, Bool.or_false]
    rw [List.any_eq_false]
    intro d hd
    simp [hnd d hd]
  rw [initialise_design hj' h', hnew, if_neg (by simp), ha]
  have hs : ∀ a : Addr, (writeVals fromSI N (resetM N o (fun a => solved j a (L.cont a))) a).design
      = (L.cont a).design := by
    intro a
    have h1 : ∀ b : PCont K, (solved j a b).design = b.design := by
      intro b; unfold solved; repeat' split
      all_goals rfl
    have h2 : (resetM N o (fun a => solved j a (L.cont a)) a).design = (L.cont a).design := by
      unfold resetM; split <;> simp only [h1]
    unfold writeVals; split <;> exact h2
  exact hs _

/-- The hypotheses are met: the specification stays where it is. -/
example : let N := exNet [] []
    ((runs exU exU N (exSt [(1, "m")]) [exJob false, exJob true]).toOption.bind (fun s =>
      (initialise exU N s (exJob true)).toOption.map
      (fun x => [(x.2.cont (addr x.1 0 "m")).design, (x.2.cont (addr x.1 1 "m")).design, (x.2.cont (1, "p")).design])))
      = some [some 3, some 3, some 3] ∧ FileOK N (exJob true).file := by
  refine ⟨by decide +kernel, fun _ _ _ _ _ _ => rfl⟩

end Tespy
