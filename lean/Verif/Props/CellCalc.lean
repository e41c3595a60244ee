import Verif.Proofs.CellCalc
import Verif.Props.Aggregate
/-!
# C99: calculations cell by cell
-/
namespace Ocgis.Props
open Ocgis Ocgis.Array Ocgis.Aggregate Ocgis.CellCalc Ocgis.Spec

/-- Every unit is the required one. -/
theorem units_ok {α : Type} (same : Option String → String → Bool) (vs : Vars α) (parms : List (String × String)) (units : List (String × String))
    (h : ∀ u ∈ units, ∃ n o, parms.lookup u.1 = some n ∧ getVar vs n = .ok o ∧ same o.units u.2 = true) :
    validateUnits same vs parms units = .ok () := by
  induction units with
  | nil => rfl
  | cons u units ih =>
    obtain ⟨n, o, h1, h2, h3⟩ := h u (by simp)
    obtain ⟨r, t⟩ := u
    simp only [validateUnits, h1, h2, h3, if_true]
    exact ih fun v hv => h v (List.mem_cons_of_mem _ hv)

/-- The variables of a calculation: for every required one that of the given name, or if none is given that of the same name. -/
def Chosen (units : List (String × String)) (parms : List (String × String)) (required : List String) (chosen : String → String) : Prop :=
  (∀ r ∈ required, parms.lookup r = some (chosen r)) ∨ (units = [] ∧ required ≠ [] ∧ (∀ r ∈ required, parms.lookup r = none ∧ chosen r = r))

theorem filterMap_lookup (parms : List (String × String)) (chosen : String → String) (required : List String)
    (h : ∀ r ∈ required, parms.lookup r = some (chosen r)) : required.filterMap (fun r => parms.lookup r) = required.map chosen := by
  induction required with
  | nil => rfl
  | cons r rs ih => rw [List.filterMap_cons, h r (by simp), List.map_cons, ih fun r' hr => h r' (List.mem_cons_of_mem _ hr)]

theorem variableNames_chosen (units parms : List (String × String)) (required : List String) (chosen : String → String)
    (h : Chosen units parms required chosen) : variableNames required parms = required.map chosen := by
  unfold variableNames
  rcases h with h | ⟨_, hne, h⟩
  · rw [if_pos (List.all_eq_true.2 fun r hr => by rw [h r hr]; rfl)]
    exact filterMap_lookup parms chosen required h
  · rw [if_neg]
    · conv => lhs; rw [← List.map_id required]
      exact List.map_congr_left fun r hr => (h r hr).2.symm
    · intro hall
      cases required with
      | nil => exact hne rfl
      | cons r rs =>
        have := List.all_eq_true.1 hall r (by simp)
        rw [(h r (by simp)).1] at this
        cases this

/-- C99: a calculation with several variables that fit the first of them computes, at each place of the first, its formula from exactly the
elements of its variables at the same place, and stores it in the data type of the first; which variable is which is as given. -/
theorem C99_multivariate_partial {α : Type} (c : Calc α) (same : Option String → String → Bool) (units parms : List (String × String))
    (first : String) (others : List String) (vs : Vars α) (chosen : String → String) (var : String → Operand α) (size : String → Nat)
    (hchosen : Chosen units parms (first :: others) chosen)
    (hvar : ∀ r ∈ first :: others, getVar vs (chosen r) = .ok (var r))
    (hunits : ∀ u ∈ units, u.1 ∈ first :: others ∧ same (var u.1).units u.2 = true)
    (hfit : ∀ r ∈ first :: others, FitsFirst size (var first) (var r))
    (hsome : ∀ n ∈ (var first).names, n ∉ standard → 0 < size n) (huses : c.uses 0 = true) :
    ∃ after out, multivariate c same units (first :: others) parms vs = .ok (after, out) ∧
      out.names = (var first).names ∧ out.shape = (var first).shape ∧
      ∀ pos : String → Nat, (∀ n ∈ (var first).names, pos n < size n) →
        Operand.at out pos = ((var first).store (c.f (inputsAt c ((first :: others).map var) pos)).1,
          (c.f (inputsAt c ((first :: others).map var) pos)).2) := by
  have hops : ((first :: others).map chosen).mapM (getVar vs) = .ok ((first :: others).map var) := by
    rw [List.mapM_map]
    exact Ocgis.Mpi.mapM_ok _ _ var hvar
  have hu : validateUnits same vs parms units = .ok () := by
    rcases hchosen with h | ⟨h, _⟩
    · apply units_ok
      intro u hu
      obtain ⟨h1, h2⟩ := hunits u hu
      exact ⟨_, _, h _ h1, hvar _ h1, h2⟩
    · subst h; rfl
  have hal : ∀ o ∈ var first :: others.map var, FitsFirst size (var first) o := by
    intro o ho
    have ho' : o ∈ (first :: others).map var := ho
    obtain ⟨r, hr, rfl⟩ := List.mem_map.1 ho'
    exact hfit r hr
  obtain ⟨out, h1, h2, h3⟩ := compute_spec c size (var first) (others.map var) ⟨0, by simp, huses⟩ hal hsome
  have hrows := rows_ok size (var first) (var first :: others.map var) (by simp) hal (hal _ (by simp)) hsome
  refine ⟨fieldAfter c vs ((first :: others).map chosen) (var first :: others.map var)
      ((extraChoices (extras (var first).names (var first).shape)).map fun e => (var first :: others.map var).map fun _ => e),
    outVar (var first) out true, ?_, rfl, h2, ?_⟩
  · unfold multivariate
    rw [hu, variableNames_chosen units parms _ chosen hchosen]
    show (((first :: others).map chosen).mapM (getVar vs) >>= fun ops => _) = _
    rw [hops]
    show (compute c (var first :: others.map var) >>= fun out => _) = _
    rw [h1]
    show (rows (var first :: others.map var) >>= fun rs => _) = _
    rw [hrows]
    rfl
  · intro pos hp
    show (((out.elem _).1, (out.elem _).2) : Cell α) = _
    have := h3 pos hp
    simp only [List.map_cons]
    rw [← this]
    rfl

/-- A temperature and a humidity over two times, two rows and a column; the humidity does not change in time and has the column first. -/
def tempOperand : Operand Rat :=
  { names := ["time", "y", "x"], shape := [2, 2, 1], value := fun idx => if idx = [1, 0, 0] then 75 else 90
    mask := some fun idx => idx == [0, 1, 0], fill := 1000, units := some "fahrenheit" }
def humidOperand : Operand Rat :=
  { names := ["x", "y"], shape := [1, 2], value := fun idx => if idx = [0, 1] then 60 else 50, fill := 1000, units := some "percent" }
def heatSizes : String → Nat := fun n => if n = "x" then 1 else 2
def heatVars : Vars Rat := [("t", tempOperand), ("h", humidOperand)]
def sameText (a : Option String) (b : String) : Bool := a == some b
def heatUnits : List (String × String) := [("tas", "fahrenheit"), ("rhs", "percent")]
def heatVar (r : String) : Operand Rat := if r = "tas" then tempOperand else humidOperand

theorem temp_fits : FitsFirst heatSizes tempOperand tempOperand := by
  refine ⟨by decide, by decide, fun n h => h, rfl, fun _ _ _ => rfl⟩
theorem humid_fits : FitsFirst heatSizes tempOperand humidOperand := by
  refine ⟨by decide, by decide, by decide, by decide, by decide⟩

example : Chosen heatUnits [("tas", "t"), ("rhs", "h")] ["tas", "rhs"] (fun r => if r = "tas" then "t" else "h") ∧
    (∀ r ∈ ["tas", "rhs"], getVar heatVars (if r = "tas" then "t" else "h") = .ok (heatVar r)) ∧
    (∀ u ∈ heatUnits, u.1 ∈ ["tas", "rhs"] ∧ sameText (heatVar u.1).units u.2 = true) ∧
    (∀ r ∈ ["tas", "rhs"], FitsFirst heatSizes (heatVar "tas") (heatVar r)) ∧ heatIndex.uses 0 = true := by
  refine ⟨Or.inl (by decide), ?_, by decide, ?_, rfl⟩
  · intro r hr
    simp only [List.mem_cons, List.not_mem_nil, or_false] at hr
    rcases hr with rfl | rfl <;> rfl
  · intro r hr
    simp only [List.mem_cons, List.not_mem_nil, or_false] at hr
    rcases hr with rfl | rfl
    · exact temp_fits
    · exact humid_fits

/-- A calculation leaves the values of the field's variables as they are; the masks too, of variables that have none or whose values it does
not hide. -/
theorem C99_inputs_partial {α : Type} (c : Calc α) (same : Option String → String → Bool) (units parms : List (String × String))
    (required : List String) (vs after : Vars α) (out : Operand α)
    (h : multivariate c same units required parms vs = .ok (after, out)) (hnd : (variableNames required parms).Nodup)
    (n : String) (o : Operand α) (hn : getVar vs n = .ok o) :
    ∃ o', getVar after n = .ok o' ∧ (o'.names, o'.shape, o'.value, o'.store, o'.fill, o'.units) = (o.names, o.shape, o.value, o.store, o.fill, o.units) ∧
      (∀ idx, (o.cell idx).2 = true → (o'.cell idx).2 = true) ∧
      ((o.mask = none ∨ (∀ k idx, (variableNames required parms)[k]? = some n → c.hide k (o.value idx) = false)) → o' = o) := by
  unfold multivariate at h
  cases hu : validateUnits same vs parms units with
  | error e => rw [hu] at h; cases h
  | ok _ =>
    rw [hu] at h
    cases hops : (variableNames required parms).mapM (getVar vs) with
    | error e => simp only [hops, bind, Except.bind] at h; cases h
    | ok ops =>
      cases hc : compute c ops with
      | error e => simp only [hops, hc, bind, Except.bind] at h; cases h
      | ok arr =>
        cases hr : rows ops with
        | error e => simp only [hops, hc, hr, bind, Except.bind] at h; cases h
        | ok rs =>
          simp only [hops, hc, hr, bind, Except.bind] at h
          cases ops with
          | nil => cases h
          | cons a rest =>
            injection h with h
            injection h with h _
            subst h
            rcases fieldAfter_get c vs _ hnd (a :: rest) hops rs n with hg | ⟨k, o1, ch, hk, ho1, hg⟩
            · exact ⟨o, hg.trans hn, rfl, fun _ h => h, fun _ => rfl⟩
            · rw [hn] at ho1
              injection ho1 with ho1
              subst ho1
              refine ⟨_, hg, rfl, ?_, ?_⟩
              · intro idx hm
                unfold touched Operand.cell at *
                cases hmask : o.mask with
                | none => rw [hmask] at hm; cases hm
                | some m =>
                  rw [hmask] at hm
                  have hm' : m idx = true := hm
                  simp [hm']
              · intro hq
                unfold touched
                rcases hq with hq | hq
                · obtain ⟨nm, sh, vl, mk, st, fl, un⟩ := o
                  simp only at hq
                  subst hq
                  rfl
                · obtain ⟨nm, sh, vl, mk, st, fl, un⟩ := o
                  simp only at hq
                  have : (fun (m : List Nat → Bool) idx => m idx || (visited ⟨nm, sh, vl, mk, st, fl, un⟩ ch idx && c.hide k (vl idx))) = fun m => m := by
                    funext m idx
                    rw [hq k idx hk]
                    simp
                  simp only [this]
                  cases mk <;> rfl

/-- C99: a string expression, evaluated for data variables that fit the first of them, has at each place of the first the value of the
expression from the elements of the named variables there, in the data type of the first.  (Masks are lost: see the counterexample.) -/
theorem C99_expression_partial {α : Type} (expr : (String → Option (Cell α)) → Cell α) (occurs : String → Bool) (first : String)
    (others : List String) (vs : Vars α) (var : String → Operand α) (size : String → Nat)
    (hvar : ∀ r ∈ first :: others, getVar vs r = .ok (var r)) (hoccurs : ∃ r ∈ first :: others, occurs r = true)
    (hfit : ∀ r ∈ first :: others, FitsFirst size (var first) (var r)) (hsome : ∀ n ∈ (var first).names, n ∉ standard → 0 < size n) :
    ∃ out, evaluate expr occurs (first :: others) vs = .ok out ∧ out.names = (var first).names ∧ out.shape = (var first).shape ∧
      ∀ pos : String → Nat, (∀ n ∈ (var first).names, pos n < size n) →
        (Operand.at out pos).1 =
          (var first).store (expr fun n => if n ∈ first :: others then some (Operand.at (var n) pos) else none).1 := by
  have hops : (first :: others).mapM (getVar vs) = .ok ((first :: others).map var) := Ocgis.Mpi.mapM_ok _ _ var hvar
  let c : Calc α := { f := fun cs => expr fun n => ((first :: others).zip cs).lookup n, uses := fun k => occurs ((first :: others).getD k "") }
  have hal : ∀ o ∈ var first :: others.map var, FitsFirst size (var first) o := by
    intro o ho
    have ho' : o ∈ (first :: others).map var := ho
    obtain ⟨r, hr, rfl⟩ := List.mem_map.1 ho'
    exact hfit r hr
  have hused : ∃ k, k < (var first :: others.map var).length ∧ c.uses k = true := by
    obtain ⟨r, hr, ho⟩ := hoccurs
    obtain ⟨k, hk, he⟩ := List.getElem_of_mem hr
    refine ⟨k, by simpa using hk, ?_⟩
    show occurs ((first :: others).getD k "") = true
    rw [List.getD_eq_getElem?_getD, List.getElem?_eq_getElem hk, he]
    exact ho
  obtain ⟨out, h1, h2, h3⟩ := compute_spec c size (var first) (others.map var) hused hal hsome
  refine ⟨outVar (var first) out false, ?_, rfl, h2, ?_⟩
  · unfold evaluate
    rw [hops]
    show (compute c (var first :: others.map var) >>= fun out => _) = _
    rw [h1]
    rfl
  · intro pos hp
    show (out.elem ((var first).names.map pos)).1 = _
    rw [h3 pos hp]
    show (var first).store (expr fun n => ((first :: others).zip (inputsAt c ((first :: others).map var) pos)).lookup n).1 = _
    congr 3
    funext n
    have hi : inputsAt c ((first :: others).map var) pos = (first :: others).map fun r => Operand.at (var r) pos := by
      unfold inputsAt
      rw [List.zipIdx_map, List.map_map]
      have : ∀ (l : List String) (k : Nat), (l.zipIdx k).map ((fun p : Operand α × Nat =>
          ((Operand.at p.1 pos).1, (Operand.at p.1 pos).2 || c.hide p.2 (Operand.at p.1 pos).1)) ∘ Prod.map var id) =
          l.map fun r => Operand.at (var r) pos := by
        intro l
        induction l with
        | nil => intro k; rfl
        | cons r l ih =>
          intro k
          rw [List.zipIdx_cons, List.map_cons, List.map_cons, ih]
          congr 1
          show ((Operand.at (var r) pos).1, (Operand.at (var r) pos).2 || false) = _
          simp
      exact this _ 0
    rw [hi, zip_map_self]
    generalize first :: others = l
    induction l with
    | nil => rfl
    | cons r l ih =>
      simp only [List.map_cons, List.lookup]
      by_cases he : n = r
      · subst he; simp
      · rw [beq_eq_false_iff_ne.2 he]
        simp only [ih, List.mem_cons, he, false_or]

example : (∀ r ∈ ["t", "h"], getVar heatVars r = .ok (if r = "t" then tempOperand else humidOperand)) ∧
    (∀ r ∈ ["t", "h"], FitsFirst heatSizes tempOperand (if r = "t" then tempOperand else humidOperand)) := by
  refine ⟨?_, ?_⟩ <;> intro r hr <;> simp only [List.mem_cons, List.not_mem_nil, or_false] at hr <;> rcases hr with rfl | rfl
  · rfl
  · rfl
  · exact temp_fits
  · exact humid_fits

/-- C99: a function of single values gives every element of a variable its value, with its mask. -/
theorem C99_univariate {α : Type} (f : Cell α → Cell α) (o : Operand α) (size : String → Nat) (hnd : o.names.Nodup)
    (hshape : o.shape = o.names.map size) (hsome : ∀ n ∈ o.names, n ∉ standard → 0 < size n) :
    ∃ out, univariate f o = .ok out ∧ out.names = o.names ∧ out.shape = o.shape ∧
      ∀ pos : String → Nat, (∀ n ∈ o.names, pos n < size n) →
        Operand.at out pos = (o.store (f (Operand.at o pos)).1, (f (Operand.at o pos)).2) := by
  have hfit : FitsFirst size o o := ⟨hnd, hshape, fun _ h => h, rfl, fun _ _ _ => rfl⟩
  obtain ⟨out, h1, h2, h3⟩ := compute_spec { f := fun cs => f (cs.headD (o.fill, false)) } size o [] ⟨0, by simp, rfl⟩
    (by intro o' ho'; rw [List.mem_singleton] at ho'; subst ho'; exact hfit) hsome
  refine ⟨outVar o out true, ?_, rfl, h2, ?_⟩
  · unfold univariate
    rw [h1]
    rfl
  · intro pos hp
    show (((out.elem _).1, (out.elem _).2) : Cell α) = _
    have := h3 pos hp
    simp only [inputsAt, List.zipIdx_cons, List.zipIdx_nil, List.map_cons, List.map_nil, List.headD_cons, Bool.or_false] at this
    exact this

example : ∃ out, univariate (fun v => (v.1 * 2, v.2)) tempOperand = .ok out ∧ out.cell [1, 0, 0] = (150, false) ∧
    (out.cell [0, 1, 0]).2 = true := ⟨_, rfl, by decide +kernel, by decide +kernel⟩

/-- C99: with a temporal grouping each value of the output is the aggregate of the cell by cell results of the group's times there. -/
theorem C99_grouped_partial {α : Type} (c : Calc α) (same : Option String → String → Bool) (units parms : List (String × String))
    (required : List String) (vs after : Vars α) (out : Operand α)
    (h : multivariate c same units required parms vs = .ok (after, out))
    (agg : List (Nat → Nat → Cell α) → Outcome α) (φ : List (Cell α) → Cell α) (hagg : ∀ b, agg b = .block fun y x => φ (b.map fun g => g y x))
    (size : String → Nat) (hnd : out.names.Nodup) (htime : "time" ∈ out.names) (hshape : out.shape = out.names.map size)
    (hsome : ∀ n ∈ out.names, n ∉ standard → 0 < size n) (groups : List (List Bool)) (hg : ∀ gr ∈ groups, gr.length = size "time") :
    ∃ res, multivariateGrouped c same units required parms vs agg groups = .ok (after, res) ∧
      res.shape = out.names.map (fun n => if n = "time" then groups.length else size n) ∧
      ∀ pos, OutputPosition out.names size groups.length pos →
        let column := ((List.range (size "time")).filter fun t => (groups.getD (pos "time") []).getD t false).map fun t =>
          Operand.at out fun n => if n = "time" then t else pos n
        res.elem (out.names.map pos) = (out.store (φ column).1, (φ column).2) := by
  obtain ⟨res, h1, h2, h3⟩ := C43_per_location agg φ hagg ⟨out.names, ⟨out.shape, out.cell⟩⟩ hnd htime size hshape hsome groups hg
    fun _ => (out.fill, false)
  refine ⟨⟨res.shape, fun idx => (out.store (res.elem idx).1, (res.elem idx).2)⟩, ?_, h2, ?_⟩
  · unfold multivariateGrouped
    rw [h]
    show (aggregate agg _ groups _ >>= fun o => _) = _
    rw [h1]
    rfl
  · intro pos hpos
    have hlen : (groups.getD (pos "time") []).length = size "time" := by
      have hl := hpos.time
      rw [List.getD_eq_getElem?_getD, List.getElem?_eq_getElem hl]
      exact hg _ (List.getElem_mem hl)
    show (out.store (res.elem (out.names.map pos)).1, (res.elem (out.names.map pos)).2) = _
    rw [h3 pos hpos]
    unfold groupColumn
    rw [hlen]
    rfl

/-- Units other than the required ones are refused before anything is computed. -/
theorem C99_units {α : Type} (c : Calc α) (same : Option String → String → Bool) (units parms : List (String × String))
    (required : List String) (vs : Vars α) (chosen : String → String) (var : String → Operand α)
    (hvar : ∀ u ∈ units, parms.lookup u.1 = some (chosen u.1) ∧ getVar vs (chosen u.1) = .ok (var u.1))
    (hbad : ∃ u ∈ units, same (var u.1).units u.2 = false) :
    multivariate c same units required parms vs = .error .definitionValidation := by
  have : validateUnits same vs parms units = .error .definitionValidation := by
    induction units with
    | nil => obtain ⟨u, hu, _⟩ := hbad; cases hu
    | cons u units ih =>
      obtain ⟨r, t⟩ := u
      have h1 := hvar (r, t) (by simp)
      simp only [validateUnits, h1.1, h1.2]
      cases hs : same (var r).units t with
      | false => rfl
      | true =>
        simp only [if_true]
        refine ih (fun u hu => hvar u (List.mem_cons_of_mem _ hu)) ?_
        obtain ⟨u, hu, hb⟩ := hbad
        rcases List.mem_cons.1 hu with rfl | hu
        · rw [hs] at hb; cases hb
        · exact ⟨u, hu, hb⟩
  unfold multivariate
  rw [this]
  rfl

example : (multivariate heatIndex sameText [("tas", "celsius")] ["tas", "rhs"] [("tas", "t"), ("rhs", "h")] heatVars).toBool = false := by
  decide +kernel

/-- Variables that need units have to be given by name: it is not enough that the field has a variable of that name. -/
theorem C99_units_given {α : Type} (c : Calc α) (same : Option String → String → Bool) (units parms : List (String × String))
    (required : List String) (vs : Vars α) (h : ∃ u ∈ units, parms.lookup u.1 = none) :
    ∃ e, multivariate c same units required parms vs = .error e := by
  have : ∃ e, validateUnits same vs parms units = .error e := by
    induction units with
    | nil => obtain ⟨u, hu, _⟩ := h; cases hu
    | cons u units ih =>
      obtain ⟨r, t⟩ := u
      simp only [validateUnits]
      split
      · exact ⟨_, rfl⟩
      · rename_i hr
        split
        · exact ⟨_, rfl⟩
        · split
          · refine ih ?_
            obtain ⟨u, hu, hn⟩ := h
            rcases List.mem_cons.1 hu with rfl | hu
            · rw [hr] at hn; cases hn
            · exact ⟨u, hu, hn⟩
          · exact ⟨_, rfl⟩
  obtain ⟨e, he⟩ := this
  refine ⟨e, ?_⟩
  unfold multivariate
  rw [he]
  rfl

example : (multivariate heatIndex sameText heatUnits ["t", "h"] [("t", "t")] heatVars).toBool = false := by decide +kernel

/-- A quotient is masked where one of the two is masked or the divisor is zero, and only there. -/
theorem C99_divide (a b : Cell Rat) :
    ((divide.f [a, b]).2 = true ↔ a.2 = true ∨ b.2 = true ∨ b.1 = 0) ∧ ((divide.f [a, b]).2 = false → (divide.f [a, b]).1 * b.1 = a.1) := by
  simp only [divide, Bool.or_eq_true, decide_eq_true_eq, or_assoc, true_and]
  intro h
  have hb : b.1 ≠ 0 := by
    intro h0
    simp [h0] at h
  rw [if_neg hb]
  exact Rat.div_mul_cancel hb

example : divide.f [(6, false), (3, false)] = (2, false) ∧ (divide.f [(6, false), (0, false)]).2 = true := by decide +kernel

/-- The heat index masks values of the field's own variables, for calculations that come after it: here the temperature of 75. -/
theorem C99_input_mask_counterexample :
    ∃ after out, multivariate heatIndex sameText heatUnits ["tas", "rhs"] [("tas", "t"), ("rhs", "h")] heatVars = .ok (after, out) ∧
      ∃ t', getVar after "t" = .ok t' ∧ tempOperand.cell [1, 0, 0] = (75, false) ∧ t'.cell [1, 0, 0] = (75, true) :=
  ⟨_, _, rfl, _, rfl, by decide +kernel, by decide +kernel⟩

/-- Two variables with a dimension that is not one of the five, which the second does not have: only the first of its elements is computed,
and the others are left with the fill value, unmasked. -/
def memberOperand : Operand Rat :=
  { names := ["member", "y", "x"], shape := [3, 1, 1], value := fun idx => (idx.headD 0 : Nat) + 10, fill := 1000 }
def plainOperand : Operand Rat := { names := ["y", "x"], shape := [1, 1], value := fun _ => 2, fill := 1000 }

theorem C99_member_counterexample :
    ∃ out, multivariate divide sameText [] ["arr1", "arr2"] [] [("arr1", memberOperand), ("arr2", plainOperand)] = .ok out ∧
      out.2.cell [0, 0, 0] = (5, false) ∧ out.2.cell [1, 0, 0] = (1000, false) ∧ out.2.cell [2, 0, 0] = (1000, false) :=
  ⟨_, rfl, by decide +kernel, by decide +kernel, by decide +kernel⟩

/-- Two such dimensions in another order in the second variable: elements are paired that do not belong to each other. -/
def runsOperand (names : List String) : Operand Rat :=
  { names := names, shape := [2, 2], value := fun idx => if (names.zip idx).lookup "member" = some 0 then 1 else 2, fill := 1000 }

theorem C99_order_counterexample :
    ∃ out, multivariate divide sameText [] ["arr1", "arr2"] []
        [("arr1", runsOperand ["member", "run"]), ("arr2", runsOperand ["run", "member"])] = .ok out ∧
      Operand.at (runsOperand ["member", "run"]) (fun n => if n = "member" then 0 else 1) = (1, false) ∧
      Operand.at (runsOperand ["run", "member"]) (fun n => if n = "member" then 0 else 1) = (1, false) ∧
      Operand.at out.2 (fun n => if n = "member" then 0 else 1) = (1 / 2, false) :=
  ⟨_, rfl, by decide +kernel, by decide +kernel, by decide +kernel⟩

/-- Such a dimension at another place: an `IndexError`, because the output is indexed as if it were at the same place. -/
theorem C99_place_counterexample :
    multivariate divide sameText [] ["arr1", "arr2"] []
      [("arr1", { names := ["time", "member"], shape := [2, 3], value := fun _ => (1 : Rat), fill := 1000 }),
       ("arr2", { names := ["member"], shape := [3], value := fun _ => 1, fill := 1000 })] = .error .indexError := rfl

/-- A variable that has a dimension more than the first is refused, although it could be computed. -/
theorem C99_first_counterexample :
    multivariate divide sameText [] ["arr1", "arr2"] [] [("arr1", plainOperand),
      ("arr2", { names := ["time", "y", "x"], shape := [2, 1, 1], value := fun _ => (1 : Rat), fill := 1000 })] = .error .indexError ∧
    multivariate divide sameText [] ["arr1", "arr2"] []
      [("arr1", { names := ["y", "x", "level"], shape := [1, 1, 1], value := fun _ => (1 : Rat), fill := 1000 }),
       ("arr2", { names := ["time", "y", "x"], shape := [2, 1, 1], value := fun _ => (1 : Rat), fill := 1000 })] = .error .valueError :=
  ⟨rfl, rfl⟩

/-- A string expression over one variable is decided by another one that does not occur in it, if that is the field's first. -/
theorem C99_unused_counterexample :
    evaluate (fun env => (env "b").getD (0, true)) (· == "b") ["b"]
      [("a", plainOperand), ("b", { names := ["time", "y", "x"], shape := [2, 1, 1], value := fun _ => (1 : Rat), fill := 1000 })] ≠ .error .indexError ∧
    evaluate (fun env => (env "b").getD (0, true)) (· == "b") ["a", "b"]
      [("a", plainOperand), ("b", { names := ["time", "y", "x"], shape := [2, 1, 1], value := fun _ => (1 : Rat), fill := 1000 })] = .error .indexError :=
  ⟨(by intro h; cases h), rfl⟩

/-- The mask of a string expression is lost: an element computed from a masked one is not masked. -/
theorem C99_mask_counterexample :
    ∃ out, evaluate (fun env => (env "t").getD (0, true)) (· == "t") ["t"] [("t", tempOperand)] = .ok out ∧
      tempOperand.cell [0, 1, 0] = (90, true) ∧ out.cell [0, 1, 0] = (90, false) :=
  ⟨_, rfl, by decide +kernel, by decide +kernel⟩

/-- Quotients of integers are cut off. -/
theorem C99_integer_counterexample :
    ∃ out, multivariate divide sameText [] ["arr1", "arr2"] []
        [("arr1", { names := ["y", "x"], shape := [1, 1], value := fun _ => 7, store := toInt, fill := 1000 }), ("arr2", plainOperand)] = .ok out ∧
      out.2.cell [0, 0] = (3, false) :=
  ⟨_, rfl, by decide +kernel⟩

/-- If one variable is given and another is not, the given one is not used. -/
theorem C99_given_counterexample :
    ∃ out, multivariate divide sameText [] ["arr1", "arr2"] [("arr1", "tasmax")]
        [("arr1", memberOperand), ("arr2", memberOperand), ("tasmax", plainOperand)] = .ok out ∧ out.2.cell [0, 0, 0] = (1, false) ∧
      plainOperand.cell [0, 0] = (2, false) ∧ memberOperand.cell [0, 0, 0] = (10, false) :=
  ⟨_, rfl, by decide +kernel, by decide +kernel, by decide +kernel⟩

end Ocgis.Props
