import Verif.Model.Optim

/-!
The run of an optimisation and its table of individuals: `OptimizationProblem.run` and `_process_generation_data`
(/repo/src/tespy/tools/optimization.py 206-305).

Simplifications: pygmo is not modelled; a population is the result of its `get_x()` and `get_f()`, and `algo.evolve` is a
parameter (the result may depend on the number of the call, as pygmo's algorithms are random). The printed reports are left
out; they raise for populations without individuals. Cells are floats, `none` is nan. The column `valid` is separate, hence a
variable, an objective or a constraint must not have this name.
-/

namespace Tespy

/-- A population: `pop.get_x()` and `pop.get_f()` (optimization.py 218-228). -/
structure Population (K : Type) where
  xs : List (List K)
  fs : List (List (Option K))

/-- `self.individuals`: index `(gen, ind)`, columns, cells and the column `valid` (optimization.py 252-263, 230-232). -/
structure IndTable (K : Type) where
  index : List (ℕ × ℕ)
  cols : List String
  cell : ℕ × ℕ → String → Option K
  valid : ℕ × ℕ → Bool

section
variable {K : Type}

/-- The cells of one row after `row[cols] = vals` (optimization.py 219, 224-227). -/
def setCells : List String → List (Option K) → (String → Option K) → String → Option K
  | c :: cs, v :: vs, row => setCells cs vs (Function.update row c v)
  | _, _, row => row

/-- `self.individuals.loc[key, cols] = vals` (optimization.py 219, 224-227): `ValueError` for another number of values;
missing columns are created. A missing row is appended. -/
def IndTable.setRow (t : IndTable K) (key : ℕ × ℕ) (cols : List String) (vals : List (Option K)) : PyRes (IndTable K) :=
  if cols.length ≠ vals.length then .error .valueError
  else .ok { t with
    index := if key ∈ t.index then t.index else t.index ++ [key]
    cols := t.cols ++ cols.filter (· ∉ t.cols)
    cell := Function.update t.cell key (setCells cols vals (t.cell key)) }

/-- The loops over the individuals of a generation (optimization.py 217-220, 222-228); `i` is `individual`. -/
def setRows (gen : ℕ) (cols : List String) : ℕ → List (List (Option K)) → IndTable K → PyRes (IndTable K)
  | _, [], t => .ok t
  | i, v :: vs, t =>
    match t.setRow (gen, i) cols v with
    | .error e => .error e
    | .ok t' => setRows gen cols (i + 1) vs t'

variable [Zero K] [LT K] [DecidableLT K]

/-- `(row[constraint_list] < 0).all()` (optimization.py 230-232): comparisons with nan are false. -/
def rowValid (cons : List String) (row : String → Option K) : Bool :=
  cons.all fun c => match row c with
    | some v => decide (v < 0)
    | none => false

/-- `_process_generation_data` (optimization.py 206-232): the column `valid` is calculated for all rows of the table;
`KeyError` if a column is missing. -/
def processGeneration (vars objs cons : List String) (gen : ℕ) (pop : Population K) (t : IndTable K) :
    PyRes (IndTable K) :=
  match setRows gen vars 0 (pop.xs.map (·.map some)) t with
  | .error e => .error e
  | .ok t1 =>
    match setRows gen (objs ++ cons) 0 pop.fs t1 with
    | .error e => .error e
    | .ok t2 =>
      if ∀ c ∈ cons, c ∈ t2.cols then .ok { t2 with valid := fun k => rowValid cons (t2.cell k) }
      else .error .keyError

/-- The loop `for gen in range(num_gen - 1)` (optimization.py 267-282). -/
def optimLoop (vars objs cons : List String) (evolve : ℕ → Population K → PyRes (Population K)) :
    List ℕ → Population K → IndTable K → PyRes (Population K × IndTable K)
  | [], pop, t => .ok (pop, t)
  | gen :: gens, pop, t =>
    match processGeneration vars objs cons gen pop t with
    | .error e => .error e
    | .ok t' =>
      match evolve gen pop with
      | .error e => .error e
      | .ok pop' => optimLoop vars objs cons evolve gens pop' t'

/-- `OptimizationProblem.run` (optimization.py 234-305): the population returned and the table of individuals. -/
def optimRun (vars objs cons : List String) (evolve : ℕ → Population K → PyRes (Population K)) (pop : Population K)
    (numInd numGen : ℕ) : PyRes (Population K × IndTable K) :=
  let t0 : IndTable K :=
    ⟨(List.range numGen).flatMap (fun g => (List.range numInd).map (fun i => (g, i))), [], fun _ _ => none, fun _ => false⟩
  match optimLoop vars objs cons evolve (List.range (numGen - 1)) pop t0 with
  | .error e => .error e
  | .ok (pop', t) =>
    let gen := if numGen > 1 then numGen - 2 + 1 else 0
    match processGeneration vars objs cons gen pop' t with
    | .error e => .error e
    | .ok t' => .ok (pop', t')

end

end Tespy
