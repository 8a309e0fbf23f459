import Verif.Props.Branches
import Verif.Props.WrapperSearch
/-
C64: every fluid is followed to exactly the connections it gets to. C65: the connections are divided
into groups which exchange fluids.
-/
namespace Tespy

section search
variable {cs : List ConnObj} {comps : List CompObj}

/-- C64 (one start): the search for the connections the fluid of `s` gets to ends within as many
steps as there are connections, whatever loops the network has; it collects every connection at most
once, only connections the fluid gets to, and all of them unless the fluid gets to the cooling and
to the combustion inlets of one engine (`C64_engine_false`). -/
theorem C64_search_partial (A : Accepted cs comps) {s : ConnObj} (hs : s ∈ cs) (hst : FluidStart s)
    (fuel : ℕ) (hf : cs.length ≤ fuel) :
    ∃ b, wrapWalk cs fuel ⟨[s], [s.source]⟩ = .ok b ∧ b.conns.Nodup ∧
      (∀ c ∈ b.conns, c ∈ cs ∧ FluidReaches cs s c) ∧
      (¬ CoolsAndBurns cs s → ∀ c, FluidReaches cs s c → c ∈ b.conns) := by
  obtain ⟨k, hk⟩ := A.classes _ (A.listed s hs).1
  have hcls : s.source.wpass ≠ .engine ∧ s.source.wpass ≠ .join ∧ s.source.wpass ≠ .node := by
    unfold FluidStart at hst
    rw [hk.1] at hst
    rw [IsA.wpass hk]
    cases k <;> simp only at hst <;> simp [Cls.wpass]
  have hI : WInv cs s ⟨[s], [s.source]⟩ := by
    refine ⟨by simp, by simpa using hs, ?_, by simp, ?_, ?_, ?_⟩
    · intro c hc; simp only [List.mem_singleton] at hc; subst hc; exact .start
    · intro cp _ hn o ho he
      simp only [List.mem_singleton] at ho hn; subst ho; exact hn he.symm
    · intro cp hcp he; simp only [List.mem_singleton] at hcp; subst hcp; exact absurd he hcls.1
    · intro cp hcp he; simp only [List.mem_singleton] at hcp; subst hcp; exact absurd he hcls.2.1
  obtain ⟨b, new, hw, hP⟩ := wGo A hst fuel ⟨[s], [s.source]⟩ s hI rfl
    (by intro hsi o hpo hm
        simp only [List.mem_singleton] at hm; subst hm
        exact A.fluidStart_not_passed hs hst hpo)
    (by simp only [List.length_singleton]; omega)
  have hbc : b.conns = s :: new := by rw [hP.conns]; rfl
  refine ⟨b, hw, hP.inv.nodup, fun c hc => ⟨hP.inv.sub c hc, hP.inv.reach c hc⟩, fun hno c hc => ?_⟩
  induction hc with
  | start => rw [hbc]; simp
  | @next i o hri hi ho hpo ih =>
    rcases hP.closed i (hbc ▸ ih) o ho hpo with h | ⟨h1, h2⟩ | ⟨h1, h2, o', h3, h4⟩
    · exact h
    · simp only [List.mem_singleton] at h2
      rw [h2] at h1; exact absurd h1 hcls.2.2
    · -- the engine was entered before
      have ho' := hP.inv.sub o' h3
      rcases hP.inv.pred o' h3 with rfl | ⟨p, hp1, hp2⟩
      · rw [← h4] at h1; exact absurd h1 hcls.1
      · have hpc := hP.inv.sub p hp1
        have hpt : p.target = i.target := hp2.1.symm.trans h4
        rcases A.engine_inlet hpc (hpt ▸ h1) with ⟨_, hid, q, hq, _, hqq⟩ | ⟨_, hid, _⟩
        · -- by a combustion inlet: the same outlet
          have e1 := hp2.2
          have e2 := hpo.2
          rw [hpt] at e1
          simp only [h1] at e1 e2
          have m13 : ("in1" : String) ≠ "in3" := by decide +kernel
          have m14 : ("in1" : String) ≠ "in4" := by decide +kernel
          have m23 : ("in2" : String) ≠ "in3" := by decide +kernel
          have m24 : ("in2" : String) ≠ "in4" := by decide +kernel
          have out3 : ∀ {x y : String}, (x = "in3" ∨ x = "in4") →
              ((x = "in1" ∧ y = "out1") ∨ (x = "in2" ∧ y = "out2") ∨
                ((x = "in3" ∨ x = "in4") ∧ y = "out3")) → y = "out3" := by
            intro x y hx h
            rcases h with ⟨h, _⟩ | ⟨h, _⟩ | ⟨_, h⟩
            · rw [h] at hx; rcases hx with hx | hx
              · exact absurd hx m13
              · exact absurd hx m14
            · rw [h] at hx; rcases hx with hx | hx
              · exact absurd hx m23
              · exact absurd hx m24
            · exact h
          have : o = o' := A.source_inj ho ho' (hpo.1.trans h4.symm)
            ((out3 h2 e2).trans (out3 hid e1).symm)
          exact this ▸ h3
        · exact absurd ⟨p, hpc, i, hi, hP.inv.reach p hp1, hri, hpt, hpt ▸ h1, hid, h2⟩ hno

/-- start positions by class -/
def Cls.fluidStart : Cls → String → Prop
  | .source, _ => True
  | .cycleCloser, _ => True
  | .fuelCell, x => x = "out2"
  | .waterElectrolyzer, x => x = "out2" ∨ x = "out3"
  | _, _ => False

/-- start positions of mass flow branches by class -/
def Cls.branchStart : Cls → String → Prop
  | .source, _ => True
  | .cycleCloser, _ => True
  | .merge, _ => True
  | .separator, _ => True
  | .combustionChamber, _ => True
  | .diabaticCombustionChamber, _ => True
  | .combustionEngine, x => x = "out3"
  | .fuelCell, x => x = "out2"
  | .waterElectrolyzer, x => x = "out2" ∨ x = "out3"
  | _, _ => False

theorem fluidStart_iff {s : ConnObj} {k : Cls} (hk : s.source.IsA k) :
    FluidStart s ↔ k.fluidStart s.sourceId := by
  unfold FluidStart; rw [hk.1]; cases k <;> exact Iff.rfl

theorem branchStart_iff {s : ConnObj} {k : Cls} (hk : s.source.IsA k) :
    BranchStart s ↔ k.branchStart s.sourceId := by
  unfold BranchStart; rw [hk.1]; cases k <;> exact Iff.rfl

theorem mem_wstarts (A : Accepted cs comps) {cp : CompObj} (h : cp ∈ comps) (s : ConnObj) :
    s ∈ cp.wstarts cs ↔ s ∈ cs ∧ s.source = cp ∧ FluidStart s := by
  obtain ⟨k, hk⟩ := A.classes _ h
  have hm := mem_starts A h s
  have hF : s.source = cp → (FluidStart s ↔ k.fluidStart s.sourceId) := by
    rintro rfl; exact fluidStart_iff hk
  have hB : s.source = cp → (BranchStart s ↔ k.branchStart s.sourceId) := by
    rintro rfl; exact branchStart_iff hk
  have hno : cp.wstarts cs = [] → (s.source = cp → ¬ FluidStart s) →
      (s ∈ cp.wstarts cs ↔ s ∈ cs ∧ s.source = cp ∧ FluidStart s) := by
    intro h1 h2; rw [h1]; simp only [List.not_mem_nil, false_iff]; exact fun ⟨_, h3, h4⟩ => h2 h3 h4
  have hyes : cp.wstarts cs = cp.starts cs → (s.source = cp → (FluidStart s ↔ BranchStart s)) →
      (s ∈ cp.wstarts cs ↔ s ∈ cs ∧ s.source = cp ∧ FluidStart s) := by
    intro h1 h2; rw [h1, hm]
    exact and_congr_right (fun _ => and_congr_right (fun h => (h2 h).symm))
  have w : ∀ {l}, (match some k with
      | some .source => (outl cs cp).take 1
      | some .cycleCloser => (outl cs cp).take 1
      | some .fuelCell => ((outl cs cp).drop 1).take 1
      | some .waterElectrolyzer => (outl cs cp).drop 1
      | _ => []) = l → cp.wstarts cs = l := by
    intro l hl; unfold CompObj.wstarts; rw [hk.1, ← hl]; cases k <;> rfl
  have st : ∀ {f}, k.startPositions = some f → cp.starts cs = f (outl cs cp) := by
    intro f hf; unfold CompObj.starts; rw [hk.1]; simp only [hf]
  cases k
  case source => exact hyes ((w rfl).trans (st rfl).symm) (fun h => (hF h).trans (hB h).symm)
  case cycleCloser => exact hyes ((w rfl).trans (st rfl).symm) (fun h => (hF h).trans (hB h).symm)
  case fuelCell => exact hyes ((w rfl).trans (st rfl).symm) (fun h => (hF h).trans (hB h).symm)
  case waterElectrolyzer => exact hyes ((w rfl).trans (st rfl).symm) (fun h => (hF h).trans (hB h).symm)
  all_goals exact hno (w rfl) (fun h h' => (hF h).mp h')

/-- a dictionary of branches found so far -/
structure Found (cs : List ConnObj) (n : ℕ) (bs : Dict String WBranch) : Prop where
  each : ∀ name b, Dict.get? bs name = some b → ∃ s ∈ cs, s.label = name ∧ FluidStart s ∧
    wrapWalk cs n ⟨[s], [s.source]⟩ = .ok b
  keys : bs.keys.Nodup

theorem dict_keys_get {κ β : Type} [DecidableEq κ] {d : Dict κ β} {k : κ} :
    k ∈ d.keys ↔ ∃ b, Dict.get? d k = some b := by
  induction d with
  | nil => simp [Dict.keys, Dict.get?]
  | cons e d ih =>
    obtain ⟨k', b'⟩ := e
    simp only [Dict.keys, List.map_cons, List.mem_cons, Dict.get?]
    by_cases hk : k = k'
    · simp [hk]
    · simp only [hk, if_false, false_or]; exact ih

theorem dict_get_set {κ β : Type} [DecidableEq κ] {d : Dict κ β} {k k' : κ} {b : β} :
    Dict.get? (Dict.set d k b) k' = if k' = k then some b else Dict.get? d k' := by
  induction d with
  | nil => simp [Dict.get?, Dict.set]
  | cons e d ih =>
    obtain ⟨k2, b2⟩ := e
    simp only [Dict.set]
    by_cases hk : k = k2
    · subst hk
      simp only [if_true, Dict.get?]
      by_cases h' : k' = k <;> simp [h']
    · simp only [hk, if_false, Dict.get?]
      rw [ih]
      by_cases h' : k' = k2
      · subst h'; simp [Ne.symm hk]
      · simp [h']

theorem dict_keys_set_nodup {κ β : Type} [DecidableEq κ] {d : Dict κ β} {k : κ} {b : β}
    (h : d.keys.Nodup) : (Dict.set d k b).keys.Nodup := by
  by_cases hm : k ∈ d.keys
  · rw [Dict.keys_set_of_mem _ hm]; exact h
  · rw [Dict.set_of_not_mem _ hm]
    simp only [Dict.keys, List.map_append, List.map_cons, List.map_nil]
    rw [List.nodup_append]
    exact ⟨h, by simp, by rintro x hx y hy rfl; simp at hy; subst hy; exact hm hx⟩

theorem wStartBranches_spec (A : Accepted cs comps) (n : ℕ) (hn : cs.length ≤ n) (cp : CompObj) :
    ∀ (os : List ConnObj) (bs : Dict String WBranch),
      (∀ o ∈ os, o ∈ cs ∧ o.source = cp ∧ FluidStart o) → Found cs n bs →
      ∃ bs', wStartBranches cs n cp os bs = .ok bs' ∧ Found cs n bs' ∧
        (∀ k ∈ bs.keys, k ∈ bs'.keys) ∧ (∀ o ∈ os, o.label ∈ bs'.keys) := by
  intro os
  induction os with
  | nil => intro bs _ hF; exact ⟨bs, rfl, hF, fun _ h => h, by simp⟩
  | cons o os ih =>
    intro bs hos hF
    obtain ⟨ho, hsrc, hst⟩ := hos o (by simp)
    obtain ⟨b, hw, _⟩ := C64_search_partial A ho hst n hn
    obtain ⟨bs', h1, h2, h3, h4⟩ := ih (Dict.set bs o.label b)
      (fun o' ho' => hos o' (List.mem_cons_of_mem _ ho'))
      ⟨by
        intro name b' hb'
        rw [dict_get_set] at hb'
        by_cases hn' : name = o.label
        · simp only [hn', if_true, Option.some.injEq] at hb'
          subst hb'; exact ⟨o, ho, hn'.symm, hst, hw⟩
        · simp only [hn', if_false] at hb'; exact hF.each name b' hb', dict_keys_set_nodup hF.keys⟩
    have hk' : ∀ k ∈ bs.keys, k ∈ (Dict.set bs o.label b).keys := by
      intro k hk
      obtain ⟨x, hx⟩ := dict_keys_get.mp hk
      rw [dict_keys_get, dict_get_set]
      split
      · exact ⟨_, rfl⟩
      · exact ⟨x, hx⟩
    refine ⟨bs', ?_, h2, fun k hk => h3 k (hk' k hk), ?_⟩
    · subst hsrc; simp only [wStartBranches, hw, h1]
    · intro o' ho'
      rcases List.mem_cons.mp ho' with rfl | ho'
      · exact h3 _ (dict_keys_get.mpr ⟨b, by rw [dict_get_set]; simp⟩)
      · exact h4 o' ho'

theorem wAllBranches_spec (A : Accepted cs comps) (n : ℕ) (hn : cs.length ≤ n) :
    ∀ (cps : List CompObj) (bs : Dict String WBranch), (∀ cp ∈ cps, cp ∈ comps) → Found cs n bs →
      ∃ bs', wAllBranches cs n cps bs = .ok bs' ∧ Found cs n bs' ∧
        (∀ k ∈ bs.keys, k ∈ bs'.keys) ∧
        (∀ s ∈ cs, s.source ∈ cps → FluidStart s → s.label ∈ bs'.keys) := by
  intro cps
  induction cps with
  | nil => intro bs _ hF; exact ⟨bs, rfl, hF, fun _ h => h, by simp⟩
  | cons cp cps ih =>
    intro bs hcps hF
    obtain ⟨b1, h1, h2, h3, h4⟩ := wStartBranches_spec A n hn cp (cp.wstarts cs) bs
      (fun o ho => (mem_wstarts A (hcps cp (by simp)) o).mp ho) hF
    obtain ⟨b2, h5, h6, h7, h8⟩ := ih b1 (fun c hc => hcps c (List.mem_cons_of_mem _ hc)) h2
    refine ⟨b2, by simp only [wAllBranches, h1, h5], h6, fun k hk => h7 k (h3 k hk), ?_⟩
    intro s hs hsrc hst
    rcases List.mem_cons.mp hsrc with h | h
    · exact h7 _ (h4 s ((mem_wstarts A (hcps cp (by simp)) s).mpr ⟨hs, h, hst⟩))
    · exact h8 s hs h hst

end search

/-! ### merging -/

/-- two branches share a connection -/
def Overlap (data : String → WBranch) (a b : String) : Prop := ∃ c ∈ (data a).conns, c ∈ (data b).conns

theorem Overlap.symm {data : String → WBranch} {a b : String} (h : Overlap data a b) : Overlap data b a := by
  obtain ⟨c, h1, h2⟩ := h; exact ⟨c, h2, h1⟩

section merge
variable {names : List String} {data : String → WBranch}

/-- what holds in the merging loop -/
structure MInv (names : List String) (data : String → WBranch) (s : MergeSt) : Prop where
  alive : ∀ g ∈ s.alive, g ∈ names
  nodup : s.alive.Nodup
  cover : ∀ n ∈ names, ∃ g ∈ s.alive, ∀ c ∈ (data n).conns, c ∈ (s.data g).conns
  own : ∀ g ∈ s.alive, ∀ c ∈ (data g).conns, c ∈ (s.data g).conns
  sound : ∀ g ∈ s.alive, ∀ c ∈ (s.data g).conns, ∃ n ∈ names, c ∈ (data n).conns

theorem mem_unionList {α : Type} [DecidableEq α] {a b : List α} {x : α} :
    x ∈ unionList a b ↔ x ∈ a ∨ x ∈ b := by
  simp [unionList]

theorem partner_spec {s : MergeSt} {name ob : String} (h : partner names s name = some ob) :
    ob ∈ names ∧ ob ≠ name ∧ Overlap s.data name ob ∧ ob ∈ s.alive := by
  unfold partner at h
  have h1 := List.find?_some h
  simp only [decide_eq_true_eq] at h1
  exact ⟨List.mem_of_find?_eq_some h, h1.1, h1.2.1, h1.2.2⟩

theorem mergeOne_inv {s : MergeSt} (hI : MInv names data s) (name : String) :
    MInv names data (mergeOne names s name) := by
  unfold mergeOne
  by_cases hal : name ∉ s.alive
  · rw [if_pos hal]; exact hI
  rw [if_neg hal]
  rw [not_not] at hal
  cases hp : partner names s name with
  | none => exact hI
  | some ob =>
    obtain ⟨h1, h2, h3, h4⟩ := partner_spec hp
    simp only
    have hsub : ∀ {g}, g ∈ s.alive.erase ob ↔ g ≠ ob ∧ g ∈ s.alive := by
      intro g; exact hI.nodup.mem_erase_iff
    have hup : ∀ g, g ≠ name → Function.update s.data name
        ⟨unionList (s.data name).conns (s.data ob).conns,
          unionList (s.data name).comps (s.data ob).comps⟩ g = s.data g := by
      intro g hg; exact Function.update_of_ne hg _ _
    refine ⟨?_, hI.nodup.erase _, ?_, ?_, ?_⟩
    · intro g hg; exact hI.alive g (hsub.mp hg).2
    · intro n hn
      obtain ⟨g, hg, hc⟩ := hI.cover n hn
      by_cases hgo : g = ob
      · subst hgo
        refine ⟨name, hsub.mpr ⟨Ne.symm h2, hal⟩, fun c hcn => ?_⟩
        dsimp only; rw [Function.update_self]; exact mem_unionList.mpr (.inr (hc c hcn))
      · refine ⟨g, hsub.mpr ⟨hgo, hg⟩, fun c hcn => ?_⟩
        by_cases hgn : g = name
        · subst hgn; dsimp only; rw [Function.update_self]; exact mem_unionList.mpr (.inl (hc c hcn))
        · dsimp only; rw [hup g hgn]; exact hc c hcn
    · intro g hg c hc
      have hg' := (hsub.mp hg).2
      by_cases hgn : g = name
      · subst hgn; dsimp only; rw [Function.update_self]; exact mem_unionList.mpr (.inl (hI.own _ hg' c hc))
      · dsimp only; rw [hup g hgn]; exact hI.own g hg' c hc
    · intro g hg c hc
      have hg' := (hsub.mp hg).2
      by_cases hgn : g = name
      · subst hgn; dsimp only at hc; rw [Function.update_self] at hc
        rcases mem_unionList.mp hc with hc | hc
        · exact hI.sound _ hg' c hc
        · exact hI.sound _ h4 c hc
      · dsimp only at hc; rw [hup g hgn] at hc; exact hI.sound g hg' c hc

theorem MInv.init (hn : names.Nodup) : MInv names data ⟨data, names⟩ :=
  ⟨fun _ h => h, hn, fun n h => ⟨n, h, fun _ hc => hc⟩, fun _ _ _ hc => hc, fun g h c hc => ⟨g, h, hc⟩⟩

theorem mergeAll_inv (hn : names.Nodup) : MInv names data (mergeAll names data) := by
  have : ∀ (l : List String) (s : MergeSt), MInv names data s → MInv names data (l.foldl (mergeOne names) s) := by
    intro l
    induction l with
    | nil => intro s h; exact h
    | cons a l ih => intro s h; exact ih _ (mergeOne_inv h a)
  exact this names _ (MInv.init hn)

/-- contents of the groups when sharing a connection is transitive -/
structure CInv (names : List String) (data : String → WBranch) (s : MergeSt) (seen : List String) : Prop where
  base : MInv names data s
  cls : ∀ g ∈ s.alive, ∀ c ∈ (s.data g).conns, ∃ n ∈ names, c ∈ (data n).conns ∧ (n = g ∨ Overlap data g n)
  apart : ∀ g ∈ s.alive, ∀ h ∈ s.alive, g ∈ seen → h ∈ seen → g ≠ h → ¬ Overlap data g h

theorem CInv.overlap {s : MergeSt} {seen : List String} (hI : CInv names data s seen)
    (ht : ∀ a ∈ names, ∀ b ∈ names, ∀ c ∈ names, Overlap data a b → Overlap data b c → Overlap data a c)
    {g h : String} (hg : g ∈ s.alive) (hh : h ∈ s.alive) (ho : Overlap s.data g h) (hne : g ≠ h) :
    Overlap data g h := by
  obtain ⟨c, h1, h2⟩ := ho
  obtain ⟨n, hn, hnc, hng⟩ := hI.cls g hg c h1
  obtain ⟨m, hm, hmc, hmh⟩ := hI.cls h hh c h2
  have hgn := hI.base.alive g hg
  have hhn := hI.base.alive h hh
  have hnm : Overlap data n m := ⟨c, hnc, hmc⟩
  have hgm : Overlap data g m := by
    rcases hng with rfl | hng
    · exact hnm
    · exact ht g hgn n hn m hm hng hnm
  rcases hmh with rfl | hmh
  · exact hgm
  · exact ht g hgn m hm h hhn hgm hmh.symm

theorem mergeOne_cinv {s : MergeSt} {pre post : List String} {name : String}
    (hnames : names = pre ++ name :: post)
    (ht : ∀ a ∈ names, ∀ b ∈ names, ∀ c ∈ names, Overlap data a b → Overlap data b c → Overlap data a c)
    (hI : CInv names data s pre) : CInv names data (mergeOne names s name) (pre ++ [name]) := by
  have hbase := mergeOne_inv hI.base name
  unfold mergeOne at hbase ⊢
  by_cases hal : name ∉ s.alive
  · rw [if_pos hal]
    refine ⟨hI.base, hI.cls, fun g hg h hh hgs hhs hne => ?_⟩
    have : ∀ {x}, x ∈ s.alive → x ∈ pre ++ [name] → x ∈ pre := by
      intro x hx hxs
      rcases List.mem_append.mp hxs with h | h
      · exact h
      · simp only [List.mem_singleton] at h; subst h; exact absurd hx hal
    exact hI.apart g hg h hh (this hg hgs) (this hh hhs) hne
  rw [if_neg hal] at hbase ⊢
  rw [not_not] at hal
  cases hp : partner names s name with
  | none =>
    simp only [hp] at hbase ⊢
    have hnone : ∀ h ∈ s.alive, h ≠ name → ¬ Overlap data name h := by
      intro h hh hne ho
      unfold partner at hp
      rw [List.find?_eq_none] at hp
      have := hp h (hI.base.alive h hh)
      simp only [decide_eq_true_eq] at this
      obtain ⟨c, h1, h2⟩ := ho
      exact this ⟨hne, ⟨c, hI.base.own _ hal c h1, hI.base.own _ hh c h2⟩, hh⟩
    refine ⟨hbase, hI.cls, fun g hg h hh hgs hhs hne => ?_⟩
    rcases List.mem_append.mp hgs with hgs | hgs
    · rcases List.mem_append.mp hhs with hhs | hhs
      · exact hI.apart g hg h hh hgs hhs hne
      · simp only [List.mem_singleton] at hhs; subst hhs
        exact fun ho => hnone g hg hne ho.symm
    · simp only [List.mem_singleton] at hgs; subst hgs
      exact hnone h hh (Ne.symm hne)
  | some ob =>
    simp only [hp] at hbase ⊢
    obtain ⟨h1, h2, h3, h4⟩ := partner_spec hp
    have hno : Overlap data name ob := hI.overlap ht hal h4 h3 (Ne.symm h2)
    have hsub : ∀ {g}, g ∈ s.alive.erase ob ↔ g ≠ ob ∧ g ∈ s.alive := by
      intro g; exact hI.base.nodup.mem_erase_iff
    have hnn := hI.base.alive name hal
    -- no other branch seen before is related to the new one
    have hlone : ∀ h ∈ s.alive, h ∈ pre → h ≠ name → h ≠ ob → ¬ Overlap data name h := by
      intro h hh hhp hhn hho ho
      by_cases hobp : ob ∈ pre
      · exact hI.apart ob h4 h hh hobp hhp (Ne.symm hho)
          (ht ob h1 name hnn h (hI.base.alive h hh) hno.symm ho)
      · unfold partner at hp
        rw [hnames, List.find?_append] at hp
        cases hf : pre.find? (fun ob => decide (ob ≠ name ∧
            (∃ c ∈ (s.data name).conns, c ∈ (s.data ob).conns) ∧ ob ∈ s.alive)) with
        | some x =>
          rw [hf] at hp
          simp only [Option.some_or, Option.some.injEq] at hp
          subst hp
          exact hobp (List.mem_of_find?_eq_some hf)
        | none =>
          rw [List.find?_eq_none] at hf
          have := hf h hhp
          simp only [decide_eq_true_eq] at this
          obtain ⟨c, c1, c2⟩ := ho
          exact this ⟨hhn, ⟨c, hI.base.own _ hal c c1, hI.base.own _ hh c c2⟩, hh⟩
    refine ⟨hbase, ?_, ?_⟩
    · intro g hg c hc
      have hg' := (hsub.mp hg).2
      by_cases hgn : g = name
      · subst hgn; dsimp only at hc; rw [Function.update_self] at hc
        rcases mem_unionList.mp hc with hc | hc
        · exact hI.cls _ hg' c hc
        · obtain ⟨n, hn, hcn, hor⟩ := hI.cls ob h4 c hc
          refine ⟨n, hn, hcn, .inr ?_⟩
          rcases hor with rfl | hor
          · exact hno
          · exact ht _ hnn ob h1 n hn hno hor
      · dsimp only at hc; rw [Function.update_of_ne hgn] at hc; exact hI.cls g hg' c hc
    · intro g hg h hh hgs hhs hne
      obtain ⟨hg1, hg2⟩ := hsub.mp hg
      obtain ⟨hh1, hh2⟩ := hsub.mp hh
      rcases List.mem_append.mp hgs with hgp | hgp
      · rcases List.mem_append.mp hhs with hhp | hhp
        · exact hI.apart g hg2 h hh2 hgp hhp hne
        · simp only [List.mem_singleton] at hhp; subst hhp
          exact fun ho => hlone g hg2 hgp hne hg1 ho.symm
      · simp only [List.mem_singleton] at hgp; subst hgp
        rcases List.mem_append.mp hhs with hhp | hhp
        · exact hlone h hh2 hhp (Ne.symm hne) hh1
        · simp only [List.mem_singleton] at hhp; exact absurd hhp.symm hne

theorem mergeAll_apart (hn : names.Nodup)
    (ht : ∀ a ∈ names, ∀ b ∈ names, ∀ c ∈ names, Overlap data a b → Overlap data b c → Overlap data a c) :
    ∀ g ∈ (mergeAll names data).alive, ∀ h ∈ (mergeAll names data).alive, g ≠ h →
      ¬ Overlap (mergeAll names data).data g h := by
  have : ∀ (l pre : List String) (s : MergeSt), names = pre ++ l → CInv names data s pre →
      CInv names data (l.foldl (mergeOne names) s) names := by
    intro l
    induction l with
    | nil => intro pre s hp h; rw [List.append_nil] at hp; rw [hp]; rw [hp] at h; exact h
    | cons a l ih =>
      intro pre s hp h
      exact ih (pre ++ [a]) _ (by rw [hp]; simp) (mergeOne_cinv hp ht h)
  have hc := this names [] ⟨data, names⟩ rfl
    ⟨MInv.init hn, fun g hg c hc => ⟨g, hg, hc, .inl rfl⟩, fun g _ h _ hgs => absurd hgs (by simp)⟩
  intro g hg h hh hne ho
  exact hc.apart g hg h hh (hc.base.alive g hg) (hc.base.alive h hh) hne (hc.overlap ht hg hh ho hne)

end merge

section groups
variable {cs : List ConnObj} {comps : List CompObj}

theorem FluidReaches.mem {s c : ConnObj} (h : FluidReaches cs s c) (hs : s ∈ cs) : c ∈ cs := by
  cases h with
  | start => exact hs
  | next _ _ h _ => exact h

/-- the fluids of two starts get to a common connection -/
def Meet (cs : List ConnObj) (s t : ConnObj) : Prop := ∃ c, FluidReaches cs s c ∧ FluidReaches cs t c

/-- C64, C65: in every network the connections a fluid gets to are divided into groups: the
procedure ends without error, and

* every connection some fluid gets to is in a group and vice versa,
* all connections the fluid of one start gets to are in the same group.

Fluids which get to the cooling and combustion inlets of one engine are excluded
(`C64_engine_false`). -/
theorem C64_groups_partial (A : Accepted cs comps)
    (hno : ∀ s ∈ cs, FluidStart s → ¬ CoolsAndBurns cs s) (fuel : ℕ) (hf : cs.length ≤ fuel) :
    ∃ groups, createWrapperBranches cs comps fuel = .ok groups ∧
      (∀ s ∈ cs, FluidStart s → ∃ g ∈ groups, ∀ c, FluidReaches cs s c → c ∈ g.conns) ∧
      (∀ g ∈ groups, ∀ c ∈ g.conns, c ∈ cs ∧ ∃ s ∈ cs, FluidStart s ∧ FluidReaches cs s c) ∧
      ((∀ s ∈ cs, ∀ t ∈ cs, ∀ u ∈ cs, FluidStart s → FluidStart t → FluidStart u →
          Meet cs s t → Meet cs t u → Meet cs s u) →
        groups.Pairwise (fun g h => ∀ c, c ∈ g.conns → c ∉ h.conns)) := by
  obtain ⟨bs, h1, h2, h3, h4⟩ := wAllBranches_spec A fuel hf comps [] (fun _ h => h)
    ⟨by intro _ _ h; simp [Dict.get?] at h, by simp [Dict.keys]⟩
  have hbs : ∀ s ∈ cs, FluidStart s → s.label ∈ bs.keys ∧
      ∀ c, c ∈ (branchData bs s.label).conns ↔ FluidReaches cs s c := by
    intro s hs hst
    have hk := h4 s hs (A.listed s hs).1 hst
    refine ⟨hk, fun c => ?_⟩
    obtain ⟨b, hb⟩ := dict_keys_get.mp hk
    obtain ⟨s', hs', hl, _, hw⟩ := h2.each _ b hb
    have := A.label_inj hs' hs hl
    subst this
    obtain ⟨b', hw', _, hr, hall⟩ := C64_search_partial A hs hst fuel hf
    rw [hw] at hw'; injection hw' with hw'; subst hw'
    unfold branchData
    rw [hb]
    exact ⟨fun h => (hr c h).2, fun h => hall (hno s' hs hst) c h⟩
  have hkey : ∀ n ∈ bs.keys, ∃ s ∈ cs, FluidStart s ∧ s.label = n := by
    intro n hn
    obtain ⟨b, hb⟩ := dict_keys_get.mp hn
    obtain ⟨s, hs, hl, hst, _⟩ := h2.each n b hb
    exact ⟨s, hs, hst, hl⟩
  have hM := mergeAll_inv (data := branchData bs) h2.keys
  refine ⟨_, by unfold createWrapperBranches; rw [h1], ?_, ?_, ?_⟩
  · intro s hs hst
    obtain ⟨hk, hr⟩ := hbs s hs hst
    obtain ⟨g, hg, hc⟩ := hM.cover _ hk
    exact ⟨_, List.mem_map_of_mem hg, fun c h => hc c ((hr c).mpr h)⟩
  · intro g hg c hc
    obtain ⟨name, hn, rfl⟩ := List.mem_map.mp hg
    obtain ⟨n, hn', hcn⟩ := hM.sound name hn c hc
    obtain ⟨s, hs, hst, rfl⟩ := hkey n hn'
    have hr := ((hbs s hs hst).2 c).mp hcn
    exact ⟨hr.mem hs, s, hs, hst, hr⟩
  · intro ht
    have hap := mergeAll_apart (data := branchData bs) h2.keys (by
      intro a ha b hb c hc hab hbc
      obtain ⟨s, hs, hst, rfl⟩ := hkey a ha
      obtain ⟨t, htm, htt, rfl⟩ := hkey b hb
      obtain ⟨u, hu, hut, rfl⟩ := hkey c hc
      obtain ⟨x, x1, x2⟩ := hab
      obtain ⟨y, y1, y2⟩ := hbc
      obtain ⟨z, z1, z2⟩ := ht s hs t htm u hu hst htt hut
        ⟨x, ((hbs s hs hst).2 x).mp x1, ((hbs t htm htt).2 x).mp x2⟩
        ⟨y, ((hbs t htm htt).2 y).mp y1, ((hbs u hu hut).2 y).mp y2⟩
      exact ⟨z, ((hbs s hs hst).2 z).mpr z1, ((hbs u hu hut).2 z).mpr z2⟩)
    rw [List.pairwise_map]
    exact hM.nodup.imp_of_mem (fun {g h} hg hh hne c hc hd => hap g hg h hh hne ⟨c, hc, hd⟩)

end groups
end Tespy
