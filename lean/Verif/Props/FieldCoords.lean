import Verif.Proofs.FieldCoords
/-! C89: the coordinates of a field are the variables that were set last. -/
namespace Ocgis.Props
open Ocgis Ocgis.FieldCoords
open Ocgis.DimMap (Attrs noAttrs)

/-- In every history of setting coordinates, setting them to `None`, reading them and adding data variables, no call
fails, every coordinate is afterwards the variable it was set to last, with its array, dimensions, bounds and (but for
time) identity, and the data variables are those added, each as added last.  Missing: names shared between coordinates or
with data variables, which the counterexamples show to be lost. -/
theorem C89_last_set_partial (own : String → Option Key) (fresh : Nat) (ops : List Op) (h : ∀ o ∈ ops, Apart own o) :
    ∃ f, (Field.empty fresh).run ops = .ok f ∧ (∀ k, Shows f k (lastSet k ops)) ∧ f.dataVariables = dataOf [] ops := by
  obtain ⟨f, hf, hi⟩ := run_inv ops (empty_inv own fresh) h
  refine ⟨f, hf, fun k => ?_, hi.dataVariables⟩
  have := hi.shows k
  rwa [lastSet_any] at this

/-- Reading coordinates changes none of them: without the reads of a history the field shows the same. -/
theorem C89_reads_partial (own : String → Option Key) (fresh : Nat) (ops : List Op) (h : ∀ o ∈ ops, Apart own o) :
    ∃ f g, (Field.empty fresh).run ops = .ok f
      ∧ (Field.empty fresh).run (ops.filter fun | .read _ => false | _ => true) = .ok g
      ∧ (∀ k, ∃ st, Shows f k st ∧ Shows g k st) ∧ f.dataVariables = g.dataVariables := by
  obtain ⟨f, hf, h1, h2⟩ := C89_last_set_partial own fresh ops h
  obtain ⟨g, hg, h3, h4⟩ := C89_last_set_partial own fresh (ops.filter fun | .read _ => false | _ => true)
    (fun o ho => h o (List.mem_filter.mp ho).1)
  refine ⟨f, g, hf, hg, fun k => ⟨lastSet k ops, h1 k, ?_⟩, ?_⟩
  · rw [← (lastSet_filter k ops (fun | .read _ => false | _ => true) fun _ _ _ => rfl).1]
    exact h3 k
  · rw [h2, h4, dataOf_filter ops (fun | .read _ => false | _ => true) fun _ _ => rfl]

/-- The attributes a coordinate shows: those of the first variable set since the coordinate was last `None`, then the
default of the coordinate, then those of the variables set later, then for time the default calendar and units. -/
theorem C89_attributes_first (own : String → Option Key) (fresh : Nat) (ops : List Op) (h : ∀ o ∈ ops, Apart own o)
    (k : Key) (i : Incoming) (d : Option (List String)) (hk : lastSet k ops = some (i, d)) :
    ∃ f g w, (Field.empty fresh).run ops = .ok f ∧ f.read k = .ok (some i.name, g) ∧ g.vars i.name = some w
      ∧ ∀ a, a ≠ "bounds" → w.attrs a = shownAttr k (settings k [] ops) a := by
  obtain ⟨f, hf, hi⟩ := run_inv ops (empty_inv own fresh) h
  have hh := hi.holds k
  rw [lastSet_any, hk] at hh
  obtain ⟨g, w, hr, _, _, _, hw, ha⟩ := read_holds hi.nameOk hh
  exact ⟨f, g, w, hf, hr, hw, ha⟩

/-- So a coordinate that was set once since it was last `None` shows the attributes of the variable.  Missing: coordinates
set again, where the attributes of the variable before are kept (`C89_units_counterexample`). -/
theorem C89_attributes_partial (own : String → Option Key) (fresh : Nat) (ops : List Op) (h : ∀ o ∈ ops, Apart own o)
    (k : Key) (i : Incoming) (d : Option (List String)) (hk : lastSet k ops = some (i, d)) (v : Var)
    (once : settings k [] ops = [v]) :
    ∃ f g w, (Field.empty fresh).run ops = .ok f ∧ f.read k = .ok (some i.name, g) ∧ g.vars i.name = some w
      ∧ ∀ a x, a ≠ "bounds" → v.attrs a = some x → w.attrs a = some x := by
  obtain ⟨f, g, w, h1, h2, h3, h4⟩ := C89_attributes_first own fresh ops h k i d hk
  refine ⟨f, g, w, h1, h2, h3, ?_⟩
  intro a x ha hx
  rw [h4 a ha, once]
  simp only [shownAttr, hx]; rfl

/-- Setting a coordinate to the variable the field already has for it keeps it, now with the dimension given. -/
theorem C89_again (own : String → Option Key) (fresh : Nat) (ops : List Op) (h : ∀ o ∈ ops, Apart own o)
    (k : Key) (i : Incoming) (d d' : Option (List String)) (v : Var) (hk : lastSet k ops = some (i, d))
    (hv : i.main = some v) (hd : d'.isSome ∨ v.dims.length ≤ 1) :
    ∃ f g, (Field.empty fresh).run ops = .ok f ∧ f.set k (some (.own i.name)) d' = .ok g ∧ Shows g k (some (i, d'))
      ∧ (∀ j, j ≠ k → Shows g j (lastSet j ops)) ∧ g.dataVariables = dataOf [] ops := by
  obtain ⟨f, hf, hi⟩ := run_inv ops (empty_inv own fresh) h
  obtain ⟨g, h1, h2, h3, h4⟩ := set_own hi (by rw [lastSet_any]; exact hk) hv hd
  refine ⟨f, g, hf, h1, h2, fun j hj => ?_, h4⟩
  have := h3 j hj
  rwa [lastSet_any] at this

/-- When a coordinate is replaced or set to `None`, the variable before and its bounds are no longer in the field, unless
the new variable is the same object or brings variables of these names along. -/
theorem C89_replaced (own : String → Option Key) (fresh : Nat) (ops : List Op) (h : ∀ o ∈ ops, Apart own o)
    (k : Key) (i : Incoming) (d d' : Option (List String)) (hk : lastSet k ops = some (i, d)) (a : Option Incoming) (f g : Field)
    (hf : (Field.empty fresh).run ops = .ok f) (hg : f.step (.set k a d') = .ok g)
    (ho : ∀ j v w, a = some j → j.main = some v → f.vars i.name = some w → w.obj ≠ v.obj)
    (m : String) (hm : m = i.name ∨ ∃ v, i.main = some v ∧ v.bounds = some m) (new : ∀ j, a = some j → ∀ p ∈ j.vars, p.1 ≠ m) :
    g.vars m = none := by
  obtain ⟨f', hf', hi⟩ := run_inv ops (empty_inv own fresh) h
  rw [hf] at hf'
  cases hf'
  exact set_gone hi (by rw [lastSet_any]; exact hk) hg ho m new hm

/-- The data variables given to a new field are its data variables, in order, if their names are not taken.  Missing:
names that are (`C89_is_data_counterexample`). -/
theorem C89_is_data_partial (f : Field) (vs : List (String × Var)) (hf : f.tags = []) (hn : (vs.map (·.1)).Nodup)
    (free : ∀ p ∈ vs, f.vars p.1 = none) : ∃ g, f.initData vs = .ok g ∧ g.dataVariables = vs := by
  have h1 := initTags vs f hn (by rw [hf]; intro p _ hp; cases hp)
  obtain ⟨h2, h3, _⟩ := initVars vs { f with tags := f.tags ++ vs.map (·.1) } hn free
  refine ⟨vs.foldl (fun f p => if (f.vars p.1).isSome then f else f.put p.1 p.2) { f with tags := f.tags ++ vs.map (·.1) }, ?_, ?_⟩
  · unfold Field.initData
    rw [h1]
    rfl
  · refine Inv.dataVariables' ?_ h3
    rw [h2, hf]; rfl

/-- Setting the coordinate system of a field whose current one can be read: it is the one read afterwards, the one before
is gone, other variables and the coordinates stay. -/
theorem C89_crs_partial (f : Field) (c0 : Option (String × Var)) (hc : f.getCrs = .ok c0) :
    (∀ n v, ∃ g, f.setCrs (some (n, v)) true true = .ok g ∧ g.getCrs = .ok (some (n, v)) ∧ g.map = f.map ∧ g.tags = f.tags
      ∧ ∀ m, m ≠ n → f.crs ≠ some m → g.vars m = f.vars m)
    ∧ ∃ g, f.setCrs none true true = .ok g ∧ g.getCrs = .ok none ∧ g.map = f.map ∧ g.tags = f.tags
      ∧ (∀ m, f.crs = some m → g.vars m = none) ∧ ∀ m, f.crs ≠ some m → g.vars m = f.vars m :=
  ⟨setCrs_some hc, setCrs_none hc⟩

/-! ## Examples and counterexamples -/

/-- A variable with units. -/
def coordVar (obj : Nat) (dims : List String) (b : Option String) (units : String) : Var :=
  ⟨obj, obj, dims, b, fun a => if a = "units" then some units else none⟩

def lonIn : Incoming := ⟨"lon", [("lon", coordVar 1 ["x"] (some "lon_bnds") "degrees_east"), ("lon_bnds", coordVar 2 ["x", "b"] none "1")]⟩
def timeOne : Incoming := ⟨"time", [("time", coordVar 3 ["t"] (some "time_bnds") "days since 2000-01-01"), ("time_bnds", coordVar 4 ["t", "b"] none "1")]⟩
def timeTwo : Incoming := ⟨"t", [("t", coordVar 5 ["t"] none "days since 1900-01-01")]⟩

/-- Names and their keys. -/
def ownNames (n : String) : Option Key :=
  if n = "lon" ∨ n = "lon_bnds" then some .x else if n = "time" ∨ n = "time_bnds" ∨ n = "t" then some .time else none

def history : List Op :=
  [.set .x (some lonIn) (some ["x"]), .addData "tas" (coordVar 7 ["t", "x"] none "K"), .set .time (some timeOne) none, .read .time,
   .read .x, .set .time (some timeTwo) none, .read .time]

theorem history_apart : ∀ o ∈ history, Apart ownNames o := by
  intro o ho
  simp only [history, List.mem_cons, List.not_mem_nil, or_false] at ho
  rcases ho with rfl | rfl | rfl | rfl | rfl | rfl | rfl
  · refine ⟨⟨_, ⟨rfl, by decide, ?_, .inl rfl⟩⟩, by decide⟩
    intro b hb; cases hb; exact ⟨by decide, _, List.mem_cons_of_mem _ List.mem_cons_self⟩
  · rfl
  · refine ⟨⟨_, ⟨rfl, by decide, ?_, .inr (by decide)⟩⟩, by decide⟩
    intro b hb; cases hb; exact ⟨by decide, _, List.mem_cons_of_mem _ List.mem_cons_self⟩
  · trivial
  · trivial
  · refine ⟨⟨_, ⟨rfl, by decide, ?_, .inr (by decide)⟩⟩, by decide⟩
    intro b hb; cases hb
  · trivial

example : ∃ f, (Field.empty 100).run history = .ok f ∧ Shows f .x (some (lonIn, some ["x"])) ∧ Shows f .time (some (timeTwo, none))
    ∧ Shows f .level none ∧ f.dataVariables = [("tas", coordVar 7 ["t", "x"] none "K")] := by
  obtain ⟨f, h1, h2, h3⟩ := C89_last_set_partial ownNames 100 history history_apart
  exact ⟨f, h1, h2 .x, h2 .time, h2 .level, h3⟩

example := C89_reads_partial ownNames 100 history history_apart
example := C89_attributes_partial ownNames 100 history history_apart .x lonIn (some ["x"]) rfl _ rfl
example := C89_again ownNames 100 history history_apart .x lonIn (some ["x"]) none _ rfl rfl (.inr (by decide))
example : ∃ f g, (Field.empty 100).run history = .ok f ∧ f.step (.set .x none none) = .ok g ∧ g.vars "lon" = none ∧ g.vars "lon_bnds" = none := by
  obtain ⟨f, hf, hi⟩ := run_inv history (empty_inv ownNames 100) history_apart
  obtain ⟨g, hg, _⟩ := set_none_inv hi .x none
  have key := C89_replaced ownNames 100 history history_apart .x lonIn (some ["x"]) none rfl none f g hf hg (fun _ _ _ h => by cases h)
  exact ⟨f, g, hf, hg, key "lon" (.inl rfl) (fun _ h => by cases h), key "lon_bnds" (.inr ⟨_, rfl, rfl⟩) (fun _ h => by cases h)⟩
example := C89_is_data_partial (Field.empty 100) [("tas", coordVar 1 ["t"] none "K"), ("pr", coordVar 2 ["t"] none "mm")] rfl (by decide)
  (fun _ _ => rfl)
example := C89_crs_partial (Field.empty 0) none rfl

/-- The field after a history, if no call failed. -/
def after (ops : List Op) : Field := ((Field.empty 100).run ops).toOption.getD (Field.empty 0)

/-- The units a field shows for a coordinate. -/
def shownUnits (f : Res Field) (k : Key) : Option String := do
  let f ← f.toOption
  let (n, g) ← (f.read k).toOption
  let v ← g.vars (← n)
  v.attrs "units"

/-- The array of the variable a field shows for a coordinate. -/
def shownData (f : Res Field) (k : Key) : Option Nat := do
  let f ← f.toOption
  let (n, g) ← (f.read k).toOption
  let v ← g.vars (← n)
  pure v.data

/-- A time variable that replaces another shows the units of the one before, so that its values denote other dates. -/
theorem C89_units_counterexample : ∃ ops : List Op, (∀ o ∈ ops, Apart ownNames o) ∧ lastSet .time ops = some (timeTwo, none)
    ∧ shownData ((Field.empty 100).run ops) .time = some 5
    ∧ timeTwo.main.bind (fun v => v.attrs "units") = some "days since 1900-01-01"
    ∧ shownUnits ((Field.empty 100).run ops) .time = some "days since 2000-01-01" :=
  ⟨history, history_apart, rfl, by decide +kernel, by decide +kernel, by decide +kernel⟩

/-- A coordinate brings along all variables of the collection it comes from: those of the field with the same names are
replaced, here the data variable. -/
theorem C89_collection_counterexample : ∃ (f : Field) (i : Incoming), (f.dataVariables.map fun p => (p.1, p.2.data)) = [("tas", 7)]
    ∧ i.name = "time" ∧ ((f.set .time (some (.other i)) none).toOption.map fun g => g.dataVariables.map fun p => (p.1, p.2.data))
      = some [("tas", 9)] :=
  ⟨(Field.empty 100).addData ⟨"tas", [("tas", coordVar 7 ["t"] none "K")]⟩,
    ⟨"time", [("time", coordVar 8 ["t"] none "days since 2000-01-01"), ("tas", coordVar 9 ["t"] none "K")]⟩,
    by decide +kernel, rfl, by decide +kernel⟩

/-- Coordinates with the same name: the second replaces the first for both. -/
theorem C89_same_name_counterexample : ∃ i j : Incoming,
    shownData ((Field.empty 100).run [.set .x (some i) none]) .x = some 1
    ∧ shownData ((Field.empty 100).run [.set .x (some i) none, .set .level (some j) none]) .x = some 2 :=
  ⟨⟨"c", [("c", coordVar 1 ["x"] none "1")]⟩, ⟨"c", [("c", coordVar 2 ["z"] none "1")]⟩, by decide +kernel, by decide +kernel⟩

/-- Renaming the variable of a coordinate loses the coordinate. -/
theorem C89_rename_counterexample : ∃ f : Field, shownData (.ok f) .x = some 1
    ∧ (f.rename "lon" "longitude").toOption.isSome ∧ shownData (f.rename "lon" "longitude") .x = none
    ∧ ((f.rename "lon" "longitude").bind fun g => g.read .x).toOption.map (·.1) = some none
    ∧ (((f.rename "lon" "longitude").toOption.bind fun g => g.vars "longitude").map (·.data)) = some 1 :=
  ⟨after [.set .x (some lonIn) none], by decide +kernel, by decide +kernel, by decide +kernel, by decide +kernel, by decide +kernel⟩

/-- Renaming a data variable takes it off the list of data variables. -/
theorem C89_rename_data_counterexample : ∃ f : Field, (f.dataVariables.map (·.1)) = ["tas"]
    ∧ ((f.rename "tas" "temperature").toOption.map fun g => g.dataVariables.map (·.1)) = some [] :=
  ⟨(Field.empty 100).addData ⟨"tas", [("tas", coordVar 7 ["t"] none "K")]⟩, by decide +kernel, by decide +kernel⟩

/-- Removing the bounds of a coordinate makes the coordinate unreadable. -/
theorem C89_remove_bounds_counterexample : ∃ f : Field, shownData (.ok f) .x = some 1
    ∧ (f.remove "lon_bnds").toOption.isSome
    ∧ ((f.remove "lon_bnds").bind fun g => (g.read .x).map fun _ => ()) = .error .keyError :=
  ⟨after [.set .x (some lonIn) none], by decide +kernel, by decide +kernel, by decide +kernel⟩

/-- Bounds set on the time variable of a field are gone when it is read again. -/
theorem C89_time_bounds_counterexample : ∃ (f g : Field) (v : Var) (b : Var),
    f.vars "time" = some v ∧ f.setBounds "time" v (some ("new_bnds", b)) = .ok g
    ∧ (g.vars "time").bind (·.bounds) = some "new_bnds"
    ∧ ((g.read .time).toOption.bind fun r => (r.2.vars "time").bind (·.bounds)) = some "time_bnds" :=
  ⟨after [.set .time (some timeOne) none], _, _, coordVar 9 ["t", "b"] none "1", rfl, rfl, by decide +kernel, by decide +kernel⟩

/-- Every access to the time of a field gives another object. -/
theorem C89_time_object_counterexample : ∃ f : Field,
    ((f.read .time).bind fun r => (r.2.read .time).map fun q => decide ((r.2.vars "t").map (·.obj) = (q.2.vars "t").map (·.obj)))
      = .ok false :=
  ⟨after [.set .time (some timeTwo) none], by decide +kernel⟩

/-- A coordinate system that is set without being added can be neither read nor replaced. -/
theorem C89_crs_counterexample : ∃ (f g : Field) (c : String × Var), f.setCrs (some c) true false = .ok g
    ∧ g.getCrs.toOption.isNone ∧ (g.setCrs (some c) true true).toOption.isNone ∧ (g.setCrs none true true).toOption.isNone :=
  ⟨Field.empty 100, _, ("crs", coordVar 1 [] none "1"), rfl, rfl, rfl, rfl⟩

/-- A data variable given to a new field is not added when the field has a variable of that name; the other one counts as
data. -/
theorem C89_is_data_counterexample : ∃ (f : Field) (v : Var), v.data = 2
    ∧ ((f.initData [("tas", v)]).toOption.map fun g => g.dataVariables.map fun p => p.2.data) = some [1] :=
  ⟨(Field.empty 100).put "tas" (coordVar 1 ["t"] none "K"), coordVar 2 ["t"] none "K", rfl, by decide +kernel⟩

end Ocgis.Props
