import Verif.Model.OptimRun
import Verif.Props.Optim

/-!
C54: the table of individuals of an optimisation run.
-/

namespace Tespy

namespace Spec

/-- The generations of a run: the starting population and what the algorithm makes of it, one call after the other. -/
def Generations {K : Type} (evolve : ℕ → Population K → PyRes (Population K)) (pop : Population K) (numGen : ℕ)
    (pops : ℕ → Population K) : Prop :=
  pops 0 = pop ∧ ∀ g, g + 1 < numGen → evolve g (pops g) = .ok (pops (g + 1))

/-- A population of `n` individuals with `nx` variables and `nf` entries of the fitness vector. -/
def Population.HasSize {K : Type} (p : Population K) (n nx nf : ℕ) : Prop :=
  p.xs.length = n ∧ p.fs.length = n ∧ (∀ x ∈ p.xs, x.length = nx) ∧ ∀ f ∈ p.fs, f.length = nf

/-- What pygmo guarantees: the fitness of every individual has been calculated by the problem (`fitness` of a problem reached
from its creation by any calls, the model being solved by `solve`). -/
def Population.Evaluated {K : Type} [Field K] (p : Population K) (fmt : K → String)
    (vars cons : List (String × PTree (OVal K)))
    (solve : List (String × PTree (OVal K)) → PyRes (ModelRes K)) : Prop :=
  List.Forall₂ (fun x f => ∃ q q' D v, Spec.Reached fmt vars cons q ∧ q.fitness solve x = .ok (q', D, v) ∧ f = v.map some)
    p.xs p.fs

end Spec

section
variable {K : Type}

theorem setCells_other : ∀ (cols : List String) (vals : List (Option K)) (row : String → Option K) (c : String),
    c ∉ cols → setCells cols vals row c = row c
  | [], _, _, _, _ => by simp [setCells]
  | _ :: _, [], _, _, _ => by simp [setCells]
  | a :: cols, v :: vals, row, c, h => by
    rw [setCells, setCells_other cols vals _ c (fun hc => h (List.mem_cons_of_mem _ hc))]
    exact Function.update_of_ne (fun e => h (by simp [e])) _ _

theorem setCells_map : ∀ (cols : List String) (vals : List (Option K)) (row : String → Option K),
    cols.Nodup → cols.length = vals.length → cols.map (setCells cols vals row) = vals
  | [], [], _, _, _ => rfl
  | [], _ :: _, _, _, h => by simp at h
  | _ :: _, [], _, _, h => by simp at h
  | c :: cols, v :: vals, row, hn, hl => by
    rw [List.nodup_cons] at hn
    simp only [setCells, List.map_cons]
    rw [setCells_other cols vals _ c hn.1, setCells_map cols vals _ hn.2 (by simpa using hl)]
    simp

theorem setRows_spec (gen : ℕ) (cols : List String) : ∀ (i : ℕ) (vals : List (List (Option K))) (t : IndTable K),
    (∀ v ∈ vals, v.length = cols.length) → (∀ j, j < vals.length → (gen, i + j) ∈ t.index) →
    ∃ t', setRows gen cols i vals t = .ok t' ∧ t'.index = t.index ∧
      (∀ k, (k.1 ≠ gen ∨ k.2 < i ∨ i + vals.length ≤ k.2) → t'.cell k = t.cell k) ∧
      (∀ j, (hj : j < vals.length) → t'.cell (gen, i + j) = setCells cols vals[j] (t.cell (gen, i + j))) ∧
      (∀ c ∈ t.cols, c ∈ t'.cols) ∧ (vals ≠ [] → ∀ c ∈ cols, c ∈ t'.cols)
  | i, [], t, _, _ => ⟨t, by simp [setRows]⟩
  | i, v :: vals, t, hv, hi => by
    have h0 : (gen, i) ∈ t.index := by simpa using hi 0 (by simp)
    set t1 : IndTable K := { t with
      index := t.index
      cols := t.cols ++ cols.filter (· ∉ t.cols)
      cell := Function.update t.cell (gen, i) (setCells cols v (t.cell (gen, i))) } with ht1
    have hset : t.setRow (gen, i) cols v = .ok t1 := by
      rw [IndTable.setRow, if_neg (by simp [hv v (by simp)]), if_pos h0]
    obtain ⟨t', h1, h2, h3, h4, h5, h6⟩ := setRows_spec gen cols (i + 1) vals t1
      (fun w hw => hv w (List.mem_cons_of_mem _ hw))
      (fun j hj => by simpa [Nat.add_assoc, Nat.add_comm 1 j] using hi (j + 1) (by simpa using hj))
    refine ⟨t', by rw [setRows, hset]; exact h1, h2, ?_, ?_, ?_, ?_⟩
    · intro k hk
      rw [h3 k (by
        rcases hk with hk | hk | hk
        · exact Or.inl hk
        · exact Or.inr (Or.inl (by omega))
        · exact Or.inr (Or.inr (by simp at hk; omega)))]
      refine Function.update_of_ne ?_ _ _
      rintro rfl
      rcases hk with hk | hk | hk
      · exact hk rfl
      · simp at hk
      · simp at hk
    · intro j hj
      cases j with
      | zero =>
        rw [h3 (gen, i + 0) (Or.inr (Or.inl (by simp)))]
        simp [ht1]
      | succ j =>
        have := h4 j (by simpa using hj)
        have e : i + (j + 1) = i + 1 + j := by omega
        rw [e, this]
        have hne : (gen, i + 1 + j) ≠ (gen, i) := by simp; omega
        simp [ht1, Function.update_of_ne hne]
    · intro c hc
      exact h5 c (by simp [ht1, hc])
    · intro _ c hc
      refine h5 c ?_
      by_cases hct : c ∈ t.cols <;> simp [ht1, hct, hc]

variable [Zero K] [LT K] [DecidableLT K]

/-- A row of the table describes an individual. -/
def RowOf (vars objs cons : List String) (p : Population K) (row : String → Option K) (i : ℕ) : Prop :=
  ∃ x f, p.xs[i]? = some x ∧ p.fs[i]? = some f ∧ vars.map row = x.map some ∧ (objs ++ cons).map row = f

theorem processGeneration_spec (vars objs cons : List String) (gen : ℕ) (p : Population K) (t : IndTable K) (n : ℕ)
    (hd : (vars ++ (objs ++ cons)).Nodup) (hs : Spec.Population.HasSize p n vars.length (objs.length + cons.length))
    (hn : 0 < n ∨ cons = []) (hi : ∀ j, j < n → (gen, j) ∈ t.index) :
    ∃ t', processGeneration vars objs cons gen p t = .ok t' ∧ t'.index = t.index ∧
      (∀ k, k.1 ≠ gen → t'.cell k = t.cell k) ∧ (∀ j, j < n → RowOf vars objs cons p (t'.cell (gen, j)) j) ∧
      ∀ k, t'.valid k = rowValid cons (t'.cell k) := by
  obtain ⟨hx, hf, hxl, hfl⟩ := hs
  obtain ⟨hnv, hnf, hdis⟩ := List.nodup_append.1 hd
  obtain ⟨t1, a1, a2, a3, a4, a5, a6⟩ := setRows_spec gen vars 0 (p.xs.map (·.map some)) t
    (fun v hv => by
      obtain ⟨x, hx, rfl⟩ := List.mem_map.1 hv
      simp [hxl x hx])
    (fun j hj => by simpa using hi j (by simpa [hx] using hj))
  obtain ⟨t2, b1, b2, b3, b4, b5, b6⟩ := setRows_spec gen (objs ++ cons) 0 p.fs t1
    (fun v hv => by simp [hfl v hv]) (fun j hj => by rw [a2]; simpa using hi j (by simpa [hf] using hj))
  have hc : ∀ c ∈ cons, c ∈ t2.cols := by
    intro c hc
    rcases hn with hn | hn
    · exact b6 (by intro e; rw [e] at hf; simp at hf; omega) c (by simp [hc])
    · rw [hn] at hc; simp at hc
  refine ⟨{ t2 with valid := fun k => rowValid cons (t2.cell k) }, ?_, b2.trans a2, ?_, ?_, fun k => rfl⟩
  · rw [processGeneration, a1]
    simp only
    rw [b1]
    simp only
    rw [if_pos hc]
  · intro k hk
    exact (b3 k (Or.inl hk)).trans (a3 k (Or.inl hk))
  · intro j hj
    have hjx : j < p.xs.length := by omega
    have hjf : j < p.fs.length := by omega
    refine ⟨p.xs[j], p.fs[j], by simp [hjx], by simp [hjf], ?_, ?_⟩
    · have e1 := a4 j (by simpa using hjx)
      have e2 := b4 j hjf
      simp only [Nat.zero_add] at e1 e2
      have : vars.map (t2.cell (gen, j)) = vars.map (t1.cell (gen, j)) := by
        refine List.map_congr_left fun c hc => ?_
        rw [e2]
        exact setCells_other _ _ _ c (fun h => hdis c hc c h rfl)
      show vars.map (t2.cell (gen, j)) = _
      rw [this, e1]
      rw [setCells_map _ _ _ hnv (by simp [hxl _ (List.getElem_mem hjx)])]
      simp
    · have e2 := b4 j hjf
      simp only [Nat.zero_add] at e2
      show (objs ++ cons).map (t2.cell (gen, j)) = _
      rw [e2]
      exact setCells_map _ _ _ hnf (by simp [hfl _ (List.getElem_mem hjf)])

theorem optimLoop_spec (vars objs cons : List String) (evolve : ℕ → Population K → PyRes (Population K)) (n N : ℕ)
    (pops : ℕ → Population K) (hev : ∀ g, g + 1 < N → evolve g (pops g) = .ok (pops (g + 1)))
    (hd : (vars ++ (objs ++ cons)).Nodup) (hn : 0 < n ∨ cons = [])
    (hs : ∀ g < N, Spec.Population.HasSize (pops g) n vars.length (objs.length + cons.length)) :
    ∀ (m g : ℕ) (t : IndTable K), g + m < N → (∀ h j, h < N → j < n → (h, j) ∈ t.index) →
      (∀ h j, h < g → j < n → RowOf vars objs cons (pops h) (t.cell (h, j)) j) →
      ∃ t', optimLoop vars objs cons evolve (List.range' g m) (pops g) t = .ok (pops (g + m), t') ∧ t'.index = t.index ∧
        ∀ h j, h < g + m → j < n → RowOf vars objs cons (pops h) (t'.cell (h, j)) j
  | 0, g, t, _, _, hr => ⟨t, by simp [optimLoop], rfl, by simpa using hr⟩
  | m + 1, g, t, hg, hi, hr => by
    obtain ⟨t1, a1, a2, a3, a4, _⟩ := processGeneration_spec vars objs cons g (pops g) t n hd (hs g (by omega)) hn
      (fun j hj => hi g j (by omega) hj)
    obtain ⟨t', b1, b2, b3⟩ := optimLoop_spec vars objs cons evolve n N pops hev hd hn hs m (g + 1) t1 (by omega)
      (by rw [a2]; exact hi) (fun h j hh hj => by
        rcases Nat.lt_succ_iff_lt_or_eq.1 hh with hh | rfl
        · rw [a3 (h, j) (by simp; omega)]
          exact hr h j hh hj
        · exact a4 j hj)
    have e : g + (m + 1) = g + 1 + m := by omega
    refine ⟨t', ?_, b2.trans a2, by rw [e]; exact b3⟩
    rw [List.range'_succ, optimLoop, a1]
    simp only
    rw [hev g (by omega)]
    simp only
    rw [b1, e]

/-- **C54, table.** A run over any number of generations of populations of constant size ends with the last generation, and
the table has exactly one row for every individual of every generation, in this order. The row of individual `i` of
generation `g` has its decision vector in the columns of the variables and its fitness vector in the columns of objective and
constraints (names without repetition); it is marked valid exactly if all constraint values are negative numbers, whatever
has been written later. -/
theorem C54_table (vars objs cons : List String) (evolve : ℕ → Population K → PyRes (Population K)) (pop : Population K)
    (numInd numGen : ℕ) (pops : ℕ → Population K) (hp : Spec.Generations evolve pop numGen pops) (hg : 0 < numGen)
    (hd : (vars ++ (objs ++ cons)).Nodup) (hn : 0 < numInd ∨ cons = [])
    (hs : ∀ g < numGen, Spec.Population.HasSize (pops g) numInd vars.length (objs.length + cons.length)) :
    ∃ t, optimRun vars objs cons evolve pop numInd numGen = .ok (pops (numGen - 1), t) ∧
      t.index = (List.range numGen).flatMap (fun g => (List.range numInd).map (fun i => (g, i))) ∧
      ∀ g i, g < numGen → i < numInd → ∃ x f, (pops g).xs[i]? = some x ∧ (pops g).fs[i]? = some f ∧
        vars.map (t.cell (g, i)) = x.map some ∧ (objs ++ cons).map (t.cell (g, i)) = f ∧
        (t.valid (g, i) = true ↔ ∀ v ∈ f.drop objs.length, ∃ a, v = some a ∧ a < 0) := by
  obtain ⟨rfl, hev⟩ := hp
  set idx := (List.range numGen).flatMap (fun g => (List.range numInd).map (fun i => (g, i))) with hidx
  have hmem : ∀ h j, h < numGen → j < numInd → (h, j) ∈ idx := by
    intro h j hh hj
    simp [hidx, hh, hj]
  obtain ⟨t1, a1, a2, a3⟩ := optimLoop_spec vars objs cons evolve numInd numGen pops hev hd hn hs (numGen - 1) 0
    ⟨idx, [], fun _ _ => none, fun _ => false⟩ (by omega) hmem (by simp)
  rw [Nat.zero_add] at a1 a3
  obtain ⟨t2, b1, b2, b3, b4, b5⟩ := processGeneration_spec vars objs cons (numGen - 1) (pops (numGen - 1)) t1 numInd hd
    (hs _ (by omega)) hn (fun j hj => by rw [a2]; exact hmem _ j (by omega) hj)
  have hgen : (if numGen > 1 then numGen - 2 + 1 else 0) = numGen - 1 := by split_ifs <;> omega
  refine ⟨t2, ?_, b2.trans a2, ?_⟩
  · rw [optimRun]
    simp only
    rw [List.range_eq_range', a1]
    simp only
    rw [hgen, b1]
  · intro g i hgi hi
    have hrow : RowOf vars objs cons (pops g) (t2.cell (g, i)) i := by
      by_cases hl : g = numGen - 1
      · rw [hl]; exact b4 i hi
      · rw [b3 (g, i) hl]
        exact a3 g i (by omega) hi
    obtain ⟨x, f, h1, h2, h3, h4⟩ := hrow
    refine ⟨x, f, h1, h2, h3, h4, ?_⟩
    rw [b5, ← h4, List.map_append, List.drop_left' (by simp), rowValid, List.all_eq_true]
    simp only [List.forall_mem_map]
    refine forall₂_congr fun c _ => ?_
    cases t2.cell (g, i) c <;> simp

end

section
variable {K : Type} [Field K]

theorem limitIs_unique {get : String → String → String → PyRes K} {cons : List (String × PTree (OVal K))}
    {c : PTree (OVal K)} {a b : K} (ha : Spec.LimitIs get cons c a) (hb : Spec.LimitIs get cons c b) : a = b := by
  rcases ha with ha | ⟨s, o, l, p, ha, hs, hg⟩ <;> rcases hb with hb | ⟨s', o', l', p', hb, hs', hg'⟩
  · rw [ha] at hb
    simpa using hb
  · rw [ha] at hb
    simp at hb
  · rw [ha] at hb
    simp at hb
  · rw [ha] at hb
    simp only [PTree.leaf.injEq, OVal.str.injEq] at hb
    subst hb
    rw [hs] at hs'
    simp only [Option.some.injEq, PTree.leaf.injEq, OVal.addr.injEq] at hs'
    obtain ⟨rfl, rfl, rfl⟩ := hs'
    rw [hg] at hg'
    simpa using hg'

namespace Spec

/-- All limits of one kind are kept, strictly: `rel value limit` for every entry of the dictionary. -/
def LimitsKept (get : String → String → String → PyRes K) (cons : List (String × PTree (OVal K))) (key : String)
    (rel : K → K → Prop) : Prop :=
  ∀ c ∈ Spec.limits cons key, ∃ lim val, Spec.LimitIs get cons c.2 lim ∧ get c.1.1 c.1.2.1 c.1.2.2 = .ok val ∧ rel val lim

end Spec

theorem limitsKept_iff [LinearOrder K] [IsStrictOrderedRing K] (get : String → String → String → PyRes K)
    (cons : List (String × PTree (OVal K))) (key : String) (up : Bool) (rel : K → K → Prop) (vs : List K)
    (hrel : ∀ lim val, rel val lim ↔ (if up then val - lim else lim - val) < 0)
    (h : List.Forall₂ (fun c v => ∃ lim val, Spec.LimitIs get cons c.2 lim ∧ get c.1.1 c.1.2.1 c.1.2.2 = .ok val ∧
      v = if up then val - lim else lim - val) (Spec.limits cons key) vs) :
    Spec.LimitsKept get cons key rel ↔ ∀ v ∈ vs, v < 0 := by
  unfold Spec.LimitsKept
  generalize Spec.limits cons key = ls at h
  induction h with
  | nil => simp
  | cons hab _ ih =>
    rw [List.forall_mem_cons, List.forall_mem_cons, ih]
    refine and_congr_left fun _ => ?_
    obtain ⟨lim, val, h1, h2, rfl⟩ := hab
    refine ⟨?_, fun hv => ⟨lim, val, h1, h2, (hrel lim val).2 hv⟩⟩
    rintro ⟨lim', val', h1', h2', hr⟩
    rw [h2] at h2'
    obtain rfl : val = val' := by simpa using h2'
    rw [limitIs_unique h1 h1']
    exact (hrel _ _).1 hr

variable [LinearOrder K] [IsStrictOrderedRing K]

/-- **C54.** In the table of every run, after any number of generations, the row of an individual has the objective and is
marked valid exactly if the model solved with its decision vector keeps all upper and lower limits strictly. -/
theorem C54_valid (fmt : K → String) (vars cons : List (String × PTree (OVal K))) (p : Problem K)
    (hw : Spec.WF (.node vars)) (h : Spec.Reached fmt vars cons p) (objective : String)
    (solve : List (String × PTree (OVal K)) → PyRes (ModelRes K))
    (evolve : ℕ → Population K → PyRes (Population K)) (pop : Population K) (numInd numGen : ℕ) (pops : ℕ → Population K)
    (hp : Spec.Generations evolve pop numGen pops) (hg : 0 < numGen) (hi : 0 < numInd)
    (hd : (p.info.names ++ ([objective] ++ p.constraintList)).Nodup)
    (hx : ∀ g < numGen, (pops g).xs.length = numInd ∧ ∀ x ∈ (pops g).xs, x.length = (Spec.varPaths vars).length)
    (hev : ∀ g < numGen, Spec.Population.Evaluated (pops g) fmt vars cons solve) :
    ∃ t, optimRun p.info.names [objective] p.constraintList evolve pop numInd numGen = .ok (pops (numGen - 1), t) ∧
      ∀ g i, g < numGen → i < numInd → ∃ x D res obj, (pops g).xs[i]? = some x ∧
        List.Forall₂ (fun path a => Spec.leafAt (.node D) path = some (.num a)) (Spec.varPaths vars) x ∧
        solve D = .ok res ∧ res.objective = .ok obj ∧ t.cell (g, i) objective = some obj ∧
        (t.valid (g, i) = true ↔ Spec.LimitsKept res.param cons "upper limits" (fun val lim => val < lim) ∧
          Spec.LimitsKept res.param cons "lower limits" (fun val lim => lim < val)) := by
  obtain ⟨nu, nl, hcl, hnic, hnu, hnl⟩ := C47_constraint_names fmt vars cons p hw h
  obtain ⟨_, _, pth, p0, q1, q2, q3, q4, q5⟩ := reached_inv fmt vars cons p hw h
  have hnames : p.info.names.length = (Spec.varPaths vars).length := by
    rw [q3, (C47_variables fmt vars cons p0 hw q1).1]; simp
  have hfit : ∀ g < numGen, ∀ f ∈ (pops g).fs, f.length = [objective].length + p.constraintList.length := by
    intro g hgn f hf
    obtain ⟨k, hk, rfl⟩ := List.getElem_of_mem hf
    have hkx : k < (pops g).xs.length := by rw [(hev g hgn).length_eq]; exact hk
    obtain ⟨q, q', D, v, hr, hfv, hv⟩ := (hev g hgn).get hkx hk
    obtain ⟨res, obj, cu, cl, _, _, rfl, hu, hl⟩ := C47_fitness fmt vars cons q q' hw hr solve _ D v hfv
    simp only [List.get_eq_getElem] at hv
    rw [hv, hcl]
    simp only [List.length_map, List.length_cons, List.length_append, List.length_nil]
    rw [← hu.length_eq, ← hl.length_eq, ← hnu.length_eq, ← hnl.length_eq]
    omega
  obtain ⟨t, h1, _, h3⟩ := C54_table p.info.names [objective] p.constraintList evolve pop numInd numGen pops hp hg hd
    (Or.inl hi) (fun g hgn => ⟨(hx g hgn).1, (hev g hgn).length_eq.symm.trans (hx g hgn).1,
      fun x hxm => ((hx g hgn).2 x hxm).trans hnames.symm, hfit g hgn⟩)
  refine ⟨t, h1, fun g i hgn hin => ?_⟩
  obtain ⟨x, f, a1, a2, a3, a4, a5⟩ := h3 g i hgn hin
  obtain ⟨hix, rfl⟩ := List.getElem?_eq_some_iff.1 a1
  obtain ⟨hif, rfl⟩ := List.getElem?_eq_some_iff.1 a2
  obtain ⟨q, q', D, v, hr, hfv, hv⟩ := (hev g hgn).get hix hif
  simp only [List.get_eq_getElem] at hv hfv
  obtain ⟨res, obj, cu, cl, b1, b2, rfl, hu, hl⟩ := C47_fitness fmt vars cons q q' hw hr solve _ D v hfv
  obtain ⟨c1, _, _⟩ := C47_decision_vector fmt vars cons q q' hw hr solve _
    ((hx g hgn).2 _ (List.getElem_mem hix)) D _ hfv
  refine ⟨_, D, res, obj, a1, c1, b1, b2, ?_, ?_⟩
  · rw [hv] at a4
    simpa using (List.cons.inj a4).1
  · rw [a5, hv]
    rw [limitsKept_iff res.param cons "upper limits" true (fun val lim => val < lim) cu (by simp)
        (hu.imp fun c v ⟨lim, val, d1, d2, d3, _⟩ => ⟨lim, val, d1, d2, by simpa using d3⟩),
      limitsKept_iff res.param cons "lower limits" false (fun val lim => lim < val) cl (by simp)
        (hl.imp fun c v ⟨lim, val, d1, d2, d3, _⟩ => ⟨lim, val, d1, d2, by simpa using d3⟩)]
    simp only [List.map_cons, List.length_cons, List.length_nil, Nat.zero_add, List.drop_succ_cons, List.drop_zero,
      List.forall_mem_map, Option.some.injEq, exists_eq_left', List.forall_mem_append]

/-- **C54, partial.** An individual marked valid keeps all limits; one that keeps all of them without reaching any of them
exactly is marked valid. Missing: individuals on a limit, see `C54_limit_reached`. -/
theorem C54_valid_partial (fmt : K → String) (vars cons : List (String × PTree (OVal K))) (p : Problem K)
    (hw : Spec.WF (.node vars)) (h : Spec.Reached fmt vars cons p) (objective : String)
    (solve : List (String × PTree (OVal K)) → PyRes (ModelRes K))
    (evolve : ℕ → Population K → PyRes (Population K)) (pop : Population K) (numInd numGen : ℕ) (pops : ℕ → Population K)
    (hp : Spec.Generations evolve pop numGen pops) (hg : 0 < numGen) (hi : 0 < numInd)
    (hd : (p.info.names ++ ([objective] ++ p.constraintList)).Nodup)
    (hx : ∀ g < numGen, (pops g).xs.length = numInd ∧ ∀ x ∈ (pops g).xs, x.length = (Spec.varPaths vars).length)
    (hev : ∀ g < numGen, Spec.Population.Evaluated (pops g) fmt vars cons solve) :
    ∃ t, optimRun p.info.names [objective] p.constraintList evolve pop numInd numGen = .ok (pops (numGen - 1), t) ∧
      ∀ g i, g < numGen → i < numInd → ∃ x D res, (pops g).xs[i]? = some x ∧
        List.Forall₂ (fun path a => Spec.leafAt (.node D) path = some (.num a)) (Spec.varPaths vars) x ∧
        solve D = .ok res ∧
        (t.valid (g, i) = true → Spec.LimitsKept res.param cons "upper limits" (fun val lim => val ≤ lim) ∧
          Spec.LimitsKept res.param cons "lower limits" (fun val lim => lim ≤ val)) ∧
        (Spec.LimitsKept res.param cons "upper limits" (fun val lim => val ≤ lim) →
          Spec.LimitsKept res.param cons "lower limits" (fun val lim => lim ≤ val) →
          Spec.LimitsKept res.param cons "upper limits" (fun val lim => val ≠ lim) →
          Spec.LimitsKept res.param cons "lower limits" (fun val lim => val ≠ lim) → t.valid (g, i) = true) := by
  obtain ⟨t, h1, h2⟩ := C54_valid fmt vars cons p hw h objective solve evolve pop numInd numGen pops hp hg hi hd hx hev
  have mono : ∀ (get : String → String → String → PyRes K) (key : String) (r s : K → K → Prop),
      (∀ a b, r a b → s a b) → Spec.LimitsKept get cons key r → Spec.LimitsKept get cons key s := by
    intro get key r s hrs hk c hc
    obtain ⟨lim, val, a1, a2, a3⟩ := hk c hc
    exact ⟨lim, val, a1, a2, hrs _ _ a3⟩
  have both : ∀ (get : String → String → String → PyRes K) (key : String) (r s : K → K → Prop),
      Spec.LimitsKept get cons key r → Spec.LimitsKept get cons key s →
      Spec.LimitsKept get cons key (fun a b => r a b ∧ s a b) := by
    intro get key r s hr hs c hc
    obtain ⟨lim, val, a1, a2, a3⟩ := hr c hc
    obtain ⟨lim', val', b1, b2, b3⟩ := hs c hc
    rw [a2] at b2
    obtain rfl : val = val' := by simpa using b2
    exact ⟨lim, val, a1, a2, a3, by rwa [limitIs_unique a1 b1]⟩
  refine ⟨t, h1, fun g i hgn hin => ?_⟩
  obtain ⟨x, D, res, obj, a1, a2, a3, a4, a5, a6⟩ := h2 g i hgn hin
  refine ⟨x, D, res, a1, a2, a3, fun hv => ?_, fun hu hl hu' hl' => a6.2 ⟨?_, ?_⟩⟩
  · obtain ⟨b1, b2⟩ := a6.1 hv
    exact ⟨mono _ _ _ _ (fun _ _ => le_of_lt) b1, mono _ _ _ _ (fun _ _ => le_of_lt) b2⟩
  · exact mono _ _ _ _ (fun a b hab => lt_of_le_of_ne hab.1 hab.2) (both _ _ _ _ hu hu')
  · exact mono _ _ _ _ (fun a b hab => lt_of_le_of_ne hab.1 (Ne.symm hab.2)) (both _ _ _ _ hl hl')

end

/-! ## Example: the problem of `Props/Optim.lean` with a model whose pressures are the decision variables -/

/-- A model with the pressures of the decision vector. -/
def vecRes (D : List (String × PTree (OVal ℚ))) : ModelRes ℚ :=
  ⟨fun _ l _ => match Spec.leafAt (.node D) ["Connections", l, "p"] with
    | some (.num a) => .ok a
    | _ => .error .keyError, .ok 7⟩

/-- Two individuals: the first keeps the lower limit `4-p >= 2-p`, the second reaches it exactly. -/
def opPop : Population ℚ := ⟨[[10, 30, 500, 6], [20, 20, 400, 8]], [[some 7, some (-20)], [some 7, some 0]]⟩

theorem opReached : ∃ p, Problem.init (fun _ => "1") opVars opCons = .ok p ∧
    p.info.names = ["Connections-2-p", "Connections-4-p", "Connections-4-T", "ext-area"] ∧
    p.constraintList = ["Connections-4-p>=Connections-2-p"] := by
  have h : (match Problem.init (fun _ : ℚ => "1") opVars opCons with
      | .error _ => none
      | .ok p => some (p.info.names, p.constraintList)) =
      some (["Connections-2-p", "Connections-4-p", "Connections-4-T", "ext-area"], ["Connections-4-p>=Connections-2-p"]) := by
    decide +kernel
  cases hp : Problem.init (fun _ : ℚ => "1") opVars opCons with
  | error e => simp [hp] at h
  | ok p =>
    simp only [hp, Option.some.injEq, Prod.mk.injEq] at h
    exact ⟨p, rfl, h.1, h.2⟩

theorem opEvaluated : Spec.Population.Evaluated opPop (fun _ => "1") opVars opCons (fun D => .ok (vecRes D)) := by
  obtain ⟨p, hp, _⟩ := opReached
  have h : ∀ x v, (match Problem.init (fun _ : ℚ => "1") opVars opCons with
      | .error _ => none
      | .ok p => match p.fitness (fun D => .ok (vecRes D)) x with
        | .error _ => none
        | .ok out => some out.2.2) = some v →
      ∃ q q' D w, Spec.Reached (fun _ => "1") opVars opCons q ∧
        q.fitness (fun D => .ok (vecRes D)) x = .ok (q', D, w) ∧ v.map some = w.map some := by
    intro x v hv
    rw [hp] at hv
    simp only at hv
    cases hf : p.fitness (fun D => .ok (vecRes D)) x with
    | error e => simp [hf] at hv
    | ok out =>
      simp only [hf, Option.some.injEq] at hv
      exact ⟨p, out.1, out.2.1, out.2.2, .init p hp, hf, by rw [hv]⟩
  refine .cons ?_ (.cons ?_ .nil)
  · exact h [10, 30, 500, 6] [7, -20] (by decide +kernel)
  · exact h [20, 20, 400, 8] [7, 0] (by decide +kernel)

/-- The hypotheses of `C54_table` and `C54_valid` are met by a run over three generations of these individuals. -/
example : ∃ p, Spec.Reached (fun _ => "1") opVars opCons p ∧ Spec.WF (.node opVars) ∧
    Spec.Generations (fun _ q => .ok q) opPop 3 (fun _ => opPop) ∧
    (p.info.names ++ (["objective"] ++ p.constraintList)).Nodup ∧
    (opPop.xs.length = 2 ∧ ∀ x ∈ opPop.xs, x.length = (Spec.varPaths opVars).length) ∧
    Spec.Population.Evaluated opPop (fun _ => "1") opVars opCons (fun D => .ok (vecRes D)) := by
  obtain ⟨p, hp, h1, h2⟩ := opReached
  refine ⟨p, .init p hp, opVars_wf, ⟨rfl, fun _ _ => rfl⟩, by rw [h1, h2]; decide, ⟨rfl, ?_⟩, opEvaluated⟩
  have : (Spec.varPaths opVars).length = 4 := by decide +kernel
  rw [this]
  decide

/-- **C54 is false.** In a run over three generations the second individual of every generation keeps all limits, one of them
with equality, and is not marked valid in the table; the first one is. -/
theorem C54_limit_reached : ∃ (p : Problem ℚ) (t : IndTable ℚ), Spec.Reached (fun _ => "1") opVars opCons p ∧
    optimRun p.info.names ["objective"] p.constraintList (fun _ q => .ok q) opPop 2 3 = .ok (opPop, t) ∧
    (∀ g < 3, t.valid (g, 0) = true ∧ t.valid (g, 1) = false) ∧
    ∃ D, List.Forall₂ (fun path a => Spec.leafAt (.node D) path = some (.num a)) (Spec.varPaths opVars) [20, 20, 400, 8] ∧
      Spec.LimitsKept (vecRes D).param opCons "upper limits" (fun val lim => val ≤ lim) ∧
      Spec.LimitsKept (vecRes D).param opCons "lower limits" (fun val lim => lim ≤ val) := by
  obtain ⟨p, hp, h1, h2⟩ := opReached
  have hw : (Spec.varPaths opVars).length = 4 := by decide +kernel
  obtain ⟨t, ht, hrow⟩ := C54_valid (fun _ => "1") opVars opCons p opVars_wf (.init p hp) "objective"
    (fun D => .ok (vecRes D)) (fun _ q => .ok q) opPop 2 3 (fun _ => opPop) ⟨rfl, fun _ _ => rfl⟩ (by norm_num) (by norm_num)
    (by rw [h1, h2]; decide) (fun _ _ => ⟨rfl, by rw [hw]; decide⟩) (fun _ _ => opEvaluated)
  have hpaths : Spec.varPaths opVars =
      [["Connections", "2", "p"], ["Connections", "4", "p"], ["Connections", "4", "T"], ["ext", "area"]] := by
    decide +kernel
  have hup : Spec.limits opCons "upper limits" = [] := by decide +kernel
  have hlo : Spec.limits opCons "lower limits" = [(("Connections", "4", "p"), .leaf (.str "ref1"))] := by rfl
  have hkept : ∀ (D : List (String × PTree (OVal ℚ))) (a b : ℚ) (rel : ℚ → ℚ → Prop),
      Spec.leafAt (.node D) ["Connections", "2", "p"] = some (.num a) →
      Spec.leafAt (.node D) ["Connections", "4", "p"] = some (.num b) →
      (Spec.LimitsKept (vecRes D).param opCons "lower limits" rel ↔ rel b a) := by
    intro D a b rel ha hb
    have hl : Spec.LimitIs (vecRes D).param opCons (.leaf (.str "ref1")) a :=
      Or.inr ⟨"ref1", "Connections", "2", "p", rfl, rfl, by simp [vecRes, ha]⟩
    have hv : (vecRes D).param "Connections" "4" "p" = .ok b := by simp [vecRes, hb]
    rw [Spec.LimitsKept, hlo]
    simp only [List.mem_singleton, forall_eq]
    refine ⟨?_, fun hr => ⟨a, b, hl, hv, hr⟩⟩
    rintro ⟨lim, val, e1, e2, e3⟩
    rw [hv] at e2
    obtain rfl : b = val := by simpa using e2
    rwa [limitIs_unique hl e1]
  have hu : ∀ (D : List (String × PTree (OVal ℚ))) rel, Spec.LimitsKept (vecRes D).param opCons "upper limits" rel := by
    intro D rel c hc
    rw [hup] at hc
    simp at hc
  refine ⟨p, t, .init p hp, ht, fun g hg => ⟨?_, ?_⟩, ?_⟩
  · obtain ⟨x, D, res, obj, e1, e2, e3, _, _, e6⟩ := hrow g 0 hg (by norm_num)
    obtain rfl : [10, 30, 500, 6] = x := by simpa [opPop] using e1
    obtain rfl : vecRes D = res := by simpa using e3
    rw [hpaths] at e2
    simp only [List.forall₂_cons] at e2
    exact e6.2 ⟨hu D _, (hkept D 10 30 _ e2.1 e2.2.1).2 (by norm_num)⟩
  · obtain ⟨x, D, res, obj, e1, e2, e3, _, _, e6⟩ := hrow g 1 hg (by norm_num)
    obtain rfl : [20, 20, 400, 8] = x := by simpa [opPop] using e1
    obtain rfl : vecRes D = res := by simpa using e3
    rw [hpaths] at e2
    simp only [List.forall₂_cons] at e2
    rw [← Bool.not_eq_true, e6]
    rintro ⟨_, hl⟩
    have := (hkept D 20 20 _ e2.1 e2.2.1).1 hl
    norm_num at this
  · obtain ⟨x, D, res, obj, e1, e2, e3, _⟩ := hrow 0 1 (by norm_num) (by norm_num)
    obtain rfl : [20, 20, 400, 8] = x := by simpa [opPop] using e1
    refine ⟨D, e2, hu D _, ?_⟩
    rw [hpaths] at e2
    simp only [List.forall₂_cons] at e2
    exact (hkept D 20 20 _ e2.1 e2.2.1).2 le_rfl

end Tespy
