import Verif.Spec.MeshReduce
import Verif.Proofs.Geomc
import Verif.Proofs.Unique
import Verif.Proofs.Indexing

namespace Ocgis.Proofs.MeshReduce
open Ocgis Ocgis.Geomc Ocgis.Reindex Ocgis.Comm Ocgis.MeshReduce Ocgis.Spec
open Ocgis.Props (sum_take_le raggedStart_eq iterMultipart_single)

theorem mapM_congr {α β : Type _} (l : List α) (f g : α → Res β) (h : ∀ a ∈ l, f a = g a) : l.mapM f = l.mapM g := by
  induction l with
  | nil => rfl
  | cons a l ih => rw [List.mapM_cons, List.mapM_cons, h a (by simp), ih fun b hb => h b (by simp [hb])]

/-- The shape of one element, without the effect on the stored connectivity. -/
def shapeOf {α : Type _} (si : Int) (mbv : Option Int) (nodes : List α) (mask : List Bool) (c : Conn) (idx : Nat) :
    Res (Option (List (List α))) :=
  if mask.getD idx false then .ok none
  else match elementNodes c idx with
    | .error e => .error e
    | .ok ec => match (elementParts mbv (zeroBased si ec)).mapM (takeInts nodes) with
      | .error e => .error e
      | .ok g => .ok (some g)

theorem overwrite_drop (flat : List Int) (s : Nat) (vs : List Int) (k : Nat) (hk : s + vs.length ≤ k)
    : (overwrite flat s vs).drop k = flat.drop k := by
  rw [overwrite, List.append_assoc, List.drop_append, List.drop_append, List.drop_drop]
  rw [List.drop_eq_nil_of_le (by simp; omega), List.nil_append]
  rw [List.drop_eq_nil_of_le (by simp; omega), List.nil_append]
  simp only [List.length_take]
  by_cases h : s ≤ flat.length
  · congr 1; omega
  · rw [List.drop_eq_nil_of_le (by omega), List.drop_eq_nil_of_le (by omega)]

theorem sum_take_mono (counts : List Nat) {i j : Nat} (h : i ≤ j) : (counts.take i).sum ≤ (counts.take j).sum := by
  have := sum_take_le (counts.take j) i
  rwa [List.take_take, Nat.min_eq_left h] at this

theorem raggedNodes_after (si : Int) (counts : List Nat) (flat : List Int) (i j : Nat) (h : i < j) :
    raggedNodes counts (overwrite flat (raggedStart counts i) ((raggedNodes counts flat i).map (· - si))) j
      = raggedNodes counts flat j := by
  have h1 := sum_take_mono counts (i := i + 1) (j := j) h
  have h2 := sum_take_mono counts (i := i) (j := i + 1) (by omega)
  rw [raggedNodes]
  rw [overwrite_drop]
  · rfl
  · rw [List.length_map, raggedNodes, List.length_take, raggedStart_eq, raggedStop, raggedStart_eq, List.length_drop]
    omega

theorem elementNodes_after (si : Int) (c : Conn) (i j : Nat) (ec : List Int) (hec : elementNodes c i = .ok ec)
    (h : i < j) : elementNodes (afterRead si c i ec) j = elementNodes c j := by
  rw [afterRead]
  split
  · next hs => cases c with
    | rows rs => rfl
    | ragged counts flat =>
      simp only [elementNodes, Except.ok.injEq] at hec
      subst hec
      simp only [storeNodes, elementNodes, zeroBased, if_pos hs, raggedNodes_after si counts flat i j h]
  · rfl

theorem readLoop_shapes {α : Type _} (si : Int) (mbv : Option Int) (nodes : List α) (mask : List Bool) (c0 : Conn)
    (idxs : List Nat) (c : Conn) (hp : idxs.Pairwise (· < ·)) (h : ∀ j ∈ idxs, elementNodes c j = elementNodes c0 j) :
    (match readLoop si mbv nodes mask idxs c with
      | .ok (gs, _) => .ok gs
      | .error e => .error e) = idxs.mapM (shapeOf si mbv nodes mask c0) := by
  induction idxs generalizing c with
  | nil => rfl
  | cons i is ih =>
    rw [List.pairwise_cons] at hp
    rw [List.mapM_cons, readLoop, shapeOf]
    by_cases hmi : mask.getD i false = true
    · rw [if_pos hmi, if_pos hmi]
      rw [← ih c hp.2 fun j hj => h j (by simp [hj])]
      cases readLoop si mbv nodes mask is c <;> rfl
    · rw [if_neg hmi, if_neg hmi, readElement, ← h i (by simp)]
      cases hec : elementNodes c i with
      | error e => rfl
      | ok ec =>
        simp only
        cases (elementParts mbv (zeroBased si ec)).mapM (takeInts nodes) with
        | error e => rfl
        | ok g =>
          simp only
          rw [← ih (afterRead si c i ec) hp.2 fun j hj => by
            rw [elementNodes_after si c i j ec hec (hp.1 j hj)]; exact h j (by simp [hj])]
          cases readLoop si mbv nodes mask is (afterRead si c i ec) <;> rfl

theorem shapes_eq {α : Type _} (m : Mesh α) :
    m.shapes = (List.range m.conn.size).mapM (shapeOf m.start m.breakAttr m.nodes m.mask m.conn) := by
  rw [Mesh.shapes, readAll]
  exact readLoop_shapes _ _ _ _ _ _ _ List.pairwise_lt_range fun _ _ => rfl

theorem mentions_iff (c : Conn) (v : Int) : Mentions c v ↔ v ∈ connValues c := by
  cases c <;> simp [Mentions, connValues]

theorem remap_mem (u : List Int) (s v : Int) (h : v ∈ u) : remapValue u s v = .ok (s + (u.idxOf v : Int)) := by
  have : u.idxOf? v = some (u.idxOf v) := by
    rw [List.idxOf?, List.findIdx?_eq_some_iff_findIdx_eq]
    exact ⟨List.idxOf_lt_length_of_mem h, rfl⟩
  rw [remapValue, this]

theorem mapM_ok_map {α β : Type _} (l : List α) (f : α → Res β) (g : α → β) (h : ∀ a ∈ l, f a = .ok (g a)) :
    l.mapM f = .ok (l.map g) := by
  induction l with
  | nil => rfl
  | cons a l ih => rw [List.mapM_cons, h a (by simp), ih fun b hb => h b (by simp [hb])]; rfl

/-- The new number of an old one. -/
def newNumber (vs : List Int) (s v : Int) : Int := s + ((npUnique vs).idxOf v : Int)

theorem reindex_eq (vs : List Int) (s : Int) : reindexSerial vs s = .ok (vs.map (newNumber vs s), npUnique vs) := by
  rw [reindexSerial]
  rw [mapM_ok_map vs _ (newNumber vs s) fun v hv => remap_mem _ s v ((mem_npUnique v vs).2 hv)]
  rfl

theorem reshapeRows_map (f : Int → Int) (rs : List (List Int)) :
    reshapeRows rs (rs.flatten.map f) = rs.map (·.map f) := by
  induction rs with
  | nil => rfl
  | cons r rs ih =>
    rw [reshapeRows, List.flatten_cons, List.map_append]
    rw [List.take_left' (by simp), List.drop_left' (by simp), ih]; rfl

/-- The connectivity with every number replaced. -/
def mapConn (f : Int → Int) : Conn → Conn
  | .rows rs => .rows (rs.map (·.map f))
  | .ragged counts flat => .ragged counts (flat.map f)

theorem reshape_map (f : Int → Int) (c : Conn) : reshapeConn c ((connValues c).map f) = mapConn f c := by
  cases c with
  | rows rs => simp only [reshapeConn, connValues, reshapeRows_map, mapConn]
  | ragged counts flat => rfl

theorem mapConn_size (f : Int → Int) (c : Conn) : (mapConn f c).size = c.size := by
  cases c <;> simp [mapConn, Conn.size]

theorem mapConn_values (f : Int → Int) (c : Conn) : connValues (mapConn f c) = (connValues c).map f := by
  cases c <;> simp [mapConn, connValues, List.map_flatten]

theorem mapConn_nodes (f : Int → Int) (c : Conn) (i : Nat) :
    elementNodes (mapConn f c) i = (elementNodes c i).map (·.map f) := by
  cases c with
  | rows rs =>
    simp only [mapConn, elementNodes, List.getElem?_map]
    cases rs[i]? <;> rfl
  | ragged counts flat =>
    simp only [mapConn, elementNodes, raggedNodes, List.map_drop, List.map_take, Except.map]

theorem elementNodes_mem (c : Conn) (i : Nat) (ec : List Int) (h : elementNodes c i = .ok ec) :
    ∀ v ∈ ec, v ∈ connValues c := by
  intro v hv
  cases c with
  | rows rs =>
    simp only [elementNodes] at h
    split at h
    · next r hr =>
      injection h with h; subst h
      simp only [connValues, List.mem_flatten]
      exact ⟨_, List.mem_of_getElem? hr, hv⟩
    · cases h
  | ragged counts flat =>
    simp only [elementNodes, Except.ok.injEq] at h
    subst h
    exact List.mem_of_mem_drop (List.mem_of_mem_take hv)

/-- What `reduce_global` returns. -/
theorem reduce_eq {α : Type _} (m m' : Mesh α) (h : reduceGlobal m = .ok m') :
    takeInts m.nodes (keptPositions m.start (npUnique (connValues m.conn))) = .ok m'.nodes
    ∧ m' = { m with nodes := m'.nodes }.setConn (mapConn (newNumber (connValues m.conn) m.start) m.conn) none none := by
  rw [reduceGlobal] at h
  split at h
  · split at h <;> cases h
  · rw [reindex_eq] at h
    simp only at h
    split at h
    · cases h
    · next kept hk =>
      injection h with h
      subst h
      refine ⟨hk, ?_⟩
      rw [reshape_map]; rfl

theorem kept_eq (s : Int) (hs : s = 0 ∨ s = 1) (u : List Int) : keptPositions s u = u.map (· - s) := by
  rcases hs with rfl | rfl
  · simp [keptPositions]
  · rw [keptPositions, if_pos rfl]

theorem zero_eq (s : Int) (hs : s = 0 ∨ s = 1) (ec : List Int) : zeroBased s ec = ec.map (· - s) := by
  rcases hs with rfl | rfl
  · simp [zeroBased]
  · rw [zeroBased, if_pos (by omega)]

/-- One value by position, as numpy takes it. -/
def take1 {α : Type _} (xs : List α) (i : Int) : Res α :=
  let j : Int := if i < 0 then i + xs.length else i
  if j < 0 then .error .indexError
  else match xs[j.toNat]? with
    | some v => .ok v
    | none => .error .indexError

theorem takeInts_eq {α : Type _} (xs : List α) (is : List Int) : takeInts xs is = is.mapM (take1 xs) := rfl

theorem take1_nat {α : Type _} (xs : List α) (k : Nat) (a : α) (h : xs[k]? = some a) : take1 xs (k : Int) = .ok a := by
  rw [take1]
  simp only [if_neg (show ¬ ((k : Int) < 0) by omega), Int.toNat_natCast, h]

theorem mapM_get {α β : Type _} (f : α → Res β) (l : List α) (ys : List β) (h : l.mapM f = .ok ys) (k : Nat) (a : α)
    (ha : l[k]? = some a) : ∃ b, ys[k]? = some b ∧ f a = .ok b := by
  induction l generalizing ys k with
  | nil => simp at ha
  | cons x l ih =>
    rw [List.mapM_cons] at h
    cases hx : f x with
    | error e => rw [hx] at h; cases h
    | ok b => cases hl : l.mapM f with
      | error e => rw [hx, hl] at h; cases h
      | ok bs =>
        rw [hx, hl] at h
        injection h with h
        subst h
        cases k with
        | zero => simp only [List.getElem?_cons_zero, Option.some.injEq] at ha; subst ha; exact ⟨b, rfl, hx⟩
        | succ k => simpa using ih bs hl k (by simpa using ha)

/-- A renumbered node number finds the same node. -/
theorem take_new {α : Type _} (nodes kept : List α) (vs : List Int) (s : Int)
    (hk : takeInts nodes ((npUnique vs).map (· - s)) = .ok kept) (v : Int) (hv : v ∈ vs) :
    take1 kept (newNumber vs s v - s) = take1 nodes (v - s) := by
  have hu : v ∈ npUnique vs := (mem_npUnique v vs).2 hv
  have hlt := List.idxOf_lt_length_of_mem hu
  have hget : ((npUnique vs).map (· - s))[(npUnique vs).idxOf v]? = some (v - s) := by
    rw [List.getElem?_map, List.getElem?_eq_getElem hlt, List.getElem_idxOf]; rfl
  rw [takeInts_eq] at hk
  obtain ⟨b, hb, hf⟩ := mapM_get _ _ _ hk _ _ hget
  rw [hf, newNumber, show s + ((npUnique vs).idxOf v : Int) - s = ((npUnique vs).idxOf v : Int) by omega]
  exact take1_nat _ _ _ hb

theorem parts_single (brk : Option Int) (ec : List Int) (h : ∀ b, brk = some b → b ∉ ec) : elementParts brk ec = [ec] := by
  cases brk with
  | none => rfl
  | some b => exact iterMultipart_single b ec (h b rfl)

theorem shapes_reduced {α : Type _} (m m' : Mesh α) (h : reduceGlobal m = .ok m') (hs : m.start = 0 ∨ m.start = 1)
    (hd : m.given ≠ none ∨ m.startAttr = m.driverStart) (hp : SinglePart m.conn m.start m.breakAttr) :
    m'.shapes = m.shapes := by
  obtain ⟨hk, hm⟩ := reduce_eq m m' h
  rw [kept_eq _ hs] at hk
  have hstart : m'.start = m.start := by
    rw [hm]
    simp only [Mesh.start, Mesh.setConn]
    rcases hd with hd | hd
    · cases hg : m.given with
      | none => exact absurd hg hd
      | some s => rfl
    · cases hg : m.given with
      | none => exact hd.symm
      | some s => rfl
  have hconn : m'.conn = mapConn (newNumber (connValues m.conn) m.start) m.conn := by rw [hm]; rfl
  have hmask : m'.mask = m.mask := by rw [hm]; rfl
  have hbrk : m'.breakAttr = none := by rw [hm]; rfl
  rw [shapes_eq, shapes_eq, hstart, hconn, hmask, hbrk, mapConn_size]
  apply mapM_congr
  intro i _
  rw [shapeOf, shapeOf]
  split
  · rfl
  · rw [mapConn_nodes]
    cases hec : elementNodes m.conn i with
    | error e => rfl
    | ok ec =>
      have hmem := elementNodes_mem _ _ _ hec
      simp only [Except.map]
      rw [parts_single m.breakAttr _ (by
        intro b hb hc
        rw [zero_eq _ hs, List.mem_map] at hc
        obtain ⟨v, hv, he⟩ := hc
        exact hp b hb v ((mentions_iff _ _).2 (hmem v hv)) he)]
      rw [show elementParts none (zeroBased m.start (ec.map (newNumber (connValues m.conn) m.start)))
        = [zeroBased m.start (ec.map (newNumber (connValues m.conn) m.start))] from rfl]
      have : takeInts m'.nodes (zeroBased m.start (ec.map (newNumber (connValues m.conn) m.start)))
          = takeInts m.nodes (zeroBased m.start ec) := by
        rw [zero_eq _ hs, zero_eq _ hs, takeInts_eq, takeInts_eq, List.map_map, List.mapM_map, List.mapM_map]
        apply mapM_congr
        intro v hv
        exact take_new _ _ _ _ hk v (hmem v hv)
      rw [List.mapM_cons, List.mapM_cons, this]
      rfl

/-- The numbers of the reduced mesh are those from the start index on. -/
theorem new_range (vs : List Int) (s v : Int) :
    v ∈ vs.map (newNumber vs s) ↔ s ≤ v ∧ v < s + (npUnique vs).length := by
  rw [List.mem_map]
  constructor
  · rintro ⟨w, hw, rfl⟩
    have := List.idxOf_lt_length_of_mem ((mem_npUnique w vs).2 hw)
    rw [newNumber]; omega
  · rintro ⟨h1, h2⟩
    have hlt : (v - s).toNat < (npUnique vs).length := by omega
    refine ⟨(npUnique vs)[(v - s).toNat], (mem_npUnique _ _).1 (List.getElem_mem hlt), ?_⟩
    have hn : (npUnique vs).Nodup := (sorted_npUnique vs).imp fun h => by omega
    rw [newNumber, List.Nodup.idxOf_getElem hn]; omega

theorem sorted_range (l : List Int) (s : Int) (n : Nat) (hp : l.Pairwise (· < ·))
    (h : ∀ v, v ∈ l ↔ s ≤ v ∧ v < s + n) : l = (List.range n).map fun (k : Nat) => s + (k : Int) := by
  have hr : ((List.range n).map fun (k : Nat) => s + (k : Int)).Pairwise (· < ·) := by
    rw [List.pairwise_map]
    exact List.pairwise_lt_range.imp fun h => by omega
  have key : ∀ (a b : List Int), a.Pairwise (· < ·) → b.Pairwise (· < ·) → (∀ v, v ∈ a ↔ v ∈ b) → a = b := by
    intro a
    induction a with
    | nil =>
      intro b _ _ hm
      cases b with
      | nil => rfl
      | cons y ys => exact absurd ((hm y).2 (by simp)) (by simp)
    | cons x xs ih =>
      intro b ha hb hm
      cases b with
      | nil => exact absurd ((hm x).1 (by simp)) (by simp)
      | cons y ys =>
        rw [List.pairwise_cons] at ha hb
        have hxy : x = y := by
          rcases List.mem_cons.1 ((hm x).1 (by simp)) with e | e
          · exact e
          · rcases List.mem_cons.1 ((hm y).2 (by simp)) with e' | e'
            · exact e'.symm
            · have := ha.1 y e'; have := hb.1 x e; omega
        subst hxy
        rw [ih ys ha.2 hb.2 ?_]
        intro v
        have := hm v
        simp only [List.mem_cons] at this
        constructor
        · intro hv
          rcases this.1 (Or.inr hv) with e | e
          · have := ha.1 v hv; omega
          · exact e
        · intro hv
          rcases this.2 (Or.inr hv) with e | e
          · have := hb.1 v hv; omega
          · exact e
  apply key _ _ hp hr
  intro v
  rw [h, List.mem_map]
  constructor
  · rintro ⟨h1, h2⟩
    exact ⟨(v - s).toNat, by rw [List.mem_range]; omega, by omega⟩
  · rintro ⟨k, hk, rfl⟩
    rw [List.mem_range] at hk; omega

theorem idxOf_range (n : Nat) (s : Int) (k : Nat) (h : k < n) :
    ((List.range n).map fun (k : Nat) => s + (k : Int)).idxOf (s + (k : Int)) = k := by
  have hn : ((List.range n).map fun (k : Nat) => s + (k : Int)).Nodup := by
    rw [List.Nodup, List.pairwise_map]
    exact List.pairwise_lt_range.imp fun h => by omega
  have := List.Nodup.idxOf_getElem hn k (by simpa using h)
  simpa using this

theorem new_fixed (vs : List Int) (s : Int) (n : Nat) (h : ∀ v, v ∈ vs ↔ s ≤ v ∧ v < s + n) (v : Int) (hv : v ∈ vs) :
    newNumber vs s v = v := by
  have he := sorted_range (npUnique vs) s n (sorted_npUnique vs) fun w => by rw [mem_npUnique, h]
  obtain ⟨h1, h2⟩ := (h v).1 hv
  rw [newNumber, he]
  have := idxOf_range n s (v - s).toNat (by omega)
  rw [show s + ((v - s).toNat : Int) = v by omega] at this
  rw [this]; omega

theorem mapConn_fixed (f : Int → Int) (c : Conn) (h : ∀ v ∈ connValues c, f v = v) : mapConn f c = c := by
  cases c with
  | rows rs =>
    simp only [mapConn, Conn.rows.injEq]
    rw [List.map_congr_left (g := id), List.map_id]
    intro r hr
    rw [List.map_congr_left (g := id), List.map_id]; rfl
    intro v hv
    exact h v (by simp only [connValues, List.mem_flatten]; exact ⟨r, hr, hv⟩)
  | ragged counts flat =>
    simp only [mapConn, Conn.ragged.injEq, true_and]
    rw [List.map_congr_left (g := id), List.map_id]
    intro v hv
    exact h v hv

theorem takeInts_range {α : Type _} (xs : List α) :
    takeInts xs ((List.range xs.length).map fun (k : Nat) => (k : Int)) = .ok xs := by
  rw [takeInts_ok]
  · congr 1
    rw [List.filterMap_map]
    apply List.ext_getElem?
    intro i
    have : ∀ (ys : List α) (n : Nat), (List.range ys.length).filterMap (fun k => ys[k]?) = ys := by
      intro ys _
      induction ys with
      | nil => rfl
      | cons y ys ih =>
        rw [List.length_cons, List.range_succ_eq_map, List.filterMap_cons]
        simp only [List.getElem?_cons_zero, List.filterMap_map]
        congr 1
    rw [show ((fun i : Int => xs[i.toNat]?) ∘ fun (k : Nat) => (k : Int)) = fun (k : Nat) => xs[k]? from by
      funext k; simp]
    rw [this xs 0]
  · intro i hi
    rw [List.mem_map] at hi
    obtain ⟨k, hk, rfl⟩ := hi
    rw [List.mem_range] at hk
    omega

theorem pickAt_get {β : Type _} (xs : List β) (is : List Nat) (h : ∀ i ∈ is, i < xs.length) (k : Nat) :
    (pickAt xs is)[k]? = is[k]?.bind fun i => xs[i]? := by
  induction is generalizing k with
  | nil => rfl
  | cons i is ih =>
    have hi := h i (by simp)
    rw [pickAt, List.filterMap_cons, List.getElem?_eq_getElem hi]
    cases k with
    | zero => simp [hi]
    | succ k =>
      simp only [List.getElem?_cons_succ]
      exact ih (fun j hj => h j (by simp [hj])) k

theorem pickAt_length {β : Type _} (xs : List β) (is : List Nat) (h : ∀ i ∈ is, i < xs.length) :
    (pickAt xs is).length = is.length := by
  induction is with
  | nil => rfl
  | cons i is ih =>
    rw [pickAt, List.filterMap_cons, List.getElem?_eq_getElem (h i (by simp))]
    simp only [List.length_cons]
    congr 1
    exact ih fun j hj => h j (by simp [hj])

/-- Slicing rows: each chosen element has its shape. -/
theorem slice_rows {α : Type _} (m : Mesh α) (rs : List (List Int)) (hc : m.conn = .rows rs)
    (hmask : m.mask.length = rs.length ∨ m.mask = []) (is : List Nat) (h : ∀ i ∈ is, i < rs.length) :
    (m.slice is).shapes = is.mapM (shapeOf m.start m.breakAttr m.nodes m.mask m.conn) := by
  rw [shapes_eq]
  have h1 : (m.slice is).conn = .rows (pickAt rs is) := by simp only [Mesh.slice, hc]
  have h2 : (m.slice is).start = m.start := rfl
  rw [h1, h2, show (m.slice is).breakAttr = m.breakAttr from rfl, show (m.slice is).nodes = m.nodes from rfl,
    show (m.slice is).mask = pickAt m.mask is from rfl, hc]
  rw [show (Conn.rows (pickAt rs is)).size = is.length from pickAt_length rs is h]
  have key : ∀ k (hk : k < is.length),
      shapeOf m.start m.breakAttr m.nodes (pickAt m.mask is) (.rows (pickAt rs is)) k
        = shapeOf m.start m.breakAttr m.nodes m.mask (.rows rs) is[k] := by
    intro k hk
    have hm : (pickAt m.mask is).getD k false = m.mask.getD is[k] false := by
      rw [List.getD_eq_getElem?_getD, List.getD_eq_getElem?_getD]
      rcases hmask with e | e
      · rw [pickAt_get _ _ (by rw [e]; exact h), List.getElem?_eq_getElem hk]; rfl
      · have : pickAt m.mask is = [] := by rw [e]; simp [pickAt]
        rw [this, e]; rfl
    rw [shapeOf, shapeOf, hm]
    simp only [elementNodes, pickAt_get rs is h, List.getElem?_eq_getElem hk, Option.bind_some]
  have : is = (List.range is.length).map fun k => is.getD k 0 := by
    apply List.ext_getElem
    · simp
    · intro k h1 h2; simp [List.getElem?_eq_getElem h1]
  conv => rhs; rw [this, List.mapM_map]
  apply mapM_congr
  intro k hk
  rw [List.mem_range] at hk
  rw [key k hk]
  simp [List.getElem?_eq_getElem hk]

end Ocgis.Proofs.MeshReduce
