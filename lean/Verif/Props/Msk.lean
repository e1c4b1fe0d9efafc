import Verif.Proofs.Msk2

/-!
C42, C43 and C50: reading MSK files.

`env` gives the files, the conversion of file names to UTF-8 and the indeterminate `Layer::dataType`; `w` is the
state of the reader, of the caller's layout and of the elements; `addr` is the address of the new element.
-/

namespace Verif.Props
open Verif Msk Spec.Msk Scan

/-- the situation of most statements: the reader is set to the file `name` with the given content (by an accepted
`IsMyFormat`), and the names can be converted -/
structure Ready42 (env : Env) (w : World) (content ename lname : List UInt8) : Prop where
  stuck : w.reader.stuck = false
  file : env.fs (narrow w.reader.fileName) = some content
  ename : env.utf8 (elemName w.reader.fileName) = some ename
  lname : env.utf8 w.reader.fileName = some lname

/-- what `read` does once the lines are understood -/
theorem read_eq {env : Env} {addr : Nat} {w : World} {content ename lname : List UInt8} (hr : Ready42 env w content ename lname)
    {ls : List (List UInt8)} (hl : Lines content ls) {iss : List (List Item)} (hi : List.Forall₂ LineGives ls iss) :
    Msk.read env addr false w =
      let acc := addItems env.junk {} iss.flatten
      let heap : Elements := fun b => if b = addr then { name := ename, geometries := acc.geoms } else w.heap b
      let lib : Library := { name := lname, elements := [some addr], layers := acc.layers }
      let data := { w.data with fileName := w.reader.fileName, libraries := w.data.libraries ++ [some lib], fileFormat := .msk }
      match fixBox data.libraries heap with
      | .ok heap => .ok true ⟨{ w.reader with stuck := false, active := true }, data, heap⟩
      | _ => .ub := by
  unfold Msk.read
  simp only [Bool.false_eq_true, if_false, hr.stuck, hr.file, Option.map_some, hr.ename, hr.lname, lines_eq hl,
    readLines_sound hi (lines_nolf hl)]
  generalize fixBox _ _ = r
  cases r <;> rfl

/-- **C42** Reading any file whose lines all have a meaning and that contains at least one box, into an empty
layout: `Read` returns true; the layout has exactly one library with exactly one element; the element holds the
boxes in file order; the layers are listed in first-occurrence order, every layer holds exactly the boxes of its
number in file order under the name of the first, every `BB` line has a layer of its own; the element's box is the
smallest around all boxes; nothing else changes. -/
theorem C42_read (env : Env) (addr : Nat) (w : World) (content ename lname : List UInt8) (hr : Ready42 env w content ename lname)
    (ls : List (List UInt8)) (hl : Lines content ls) (iss : List (List Item)) (hi : List.Forall₂ LineGives ls iss)
    (hne : iss.flatten ≠ []) (hempty : w.data.libraries = []) :
    ∃ w' lib, Msk.read env addr false w = .ok true w' ∧ w'.data.libraries = [some lib] ∧ lib.name = lname ∧
      lib.elements = [some addr] ∧ w'.data.fileName = w.reader.fileName ∧ w'.data.fileFormat = .msk ∧
      (w'.heap addr).name = ename ∧ (w'.heap addr).geometries = iss.flatten.map (fun i => some i.box) ∧
      Encloses (w'.heap addr).min (w'.heap addr).max (iss.flatten.map Item.box) ∧
      lib.layers.map Layer.layer = layerOrder [] iss.flatten ∧
      (∀ n, (∀ i ∈ iss.flatten, i.isBB = true → i.box.layer ≠ n) →
        lib.layers.filter (fun l => l.layer = n) =
          match iss.flatten.filter (fun i => i.box.layer = n) with
          | [] => []
          | i :: is => [{ layer := n, dataType := env.junk, name := i.name, geometries := (i :: is).map fun i => some i.box }]) ∧
      ((∀ i ∈ iss.flatten, i.isBB = true ↔ i.box.layer = -5) →
        lib.layers.filter (fun l => l.layer = -5) = (iss.flatten.filter fun i => i.isBB).map fun i =>
          { layer := -5, dataType := env.junk, name := i.name, geometries := [some i.box] }) ∧
      (∀ b, b ≠ addr → w'.heap b = w.heap b) := by
  have e := read_eq (addr := addr) hr hl hi
  have hg : (addItems env.junk {} iss.flatten).geoms = (iss.flatten.map Item.box).map some := by
    rw [addItems_geoms]; simp [Function.comp_def]
  obtain ⟨mn, mx, hen, hf⟩ := fixBox_ok
    (libs := w.data.libraries ++ [some { name := lname, elements := [some addr], layers := (addItems env.junk {} iss.flatten).layers }])
    (heap := fun b => if b = addr then { name := ename, geometries := (addItems env.junk {} iss.flatten).geoms } else w.heap b)
    (gs := iss.flatten.map Item.box) (by rw [hempty]; rfl) rfl (by simp only [if_true]; exact hg) (by simpa using hne)
  simp only [hf] at e
  refine ⟨_, { name := lname, elements := [some addr], layers := (addItems env.junk {} iss.flatten).layers }, e, ?_, rfl, rfl, rfl,
    rfl, ?_, ?_, ?_, ?_, ?_, ?_, ?_⟩
  · simp [hempty]
  · simp
  · simp [hg, Function.comp_def]
  · simpa using hen
  · have := addItems_order env.junk iss.flatten {}
    simpa using this
  · intro n hn
    rw [addItems_layer env.junk n _ hn]
    cases iss.flatten.filter (fun i => i.box.layer = n) <;> rfl
  · intro hb
    exact addItems_bb env.junk _ hb
  · intro b hb
    simp [hb]

/-- **C42** The library of such a layout has the units every new library has: the doubles nearest to 0.001 and to 10^-9. -/
theorem C42_units (env : Env) (addr : Nat) (w : World) (content ename lname : List UInt8) (hr : Ready42 env w content ename lname)
    (ls : List (List UInt8)) (hl : Lines content ls) (iss : List (List Item)) (hi : List.Forall₂ LineGives ls iss)
    (hne : iss.flatten ≠ []) (hempty : w.data.libraries = []) :
    ∃ w' lib, Msk.read env addr false w = .ok true w' ∧ w'.data.libraries = [some lib] ∧
      lib.units = (.fin (Ieee.rne (1 / 1000)), .fin (Ieee.rne (1 / 1000000000))) := by
  have e := read_eq (addr := addr) hr hl hi
  have hg : (addItems env.junk {} iss.flatten).geoms = (iss.flatten.map Item.box).map some := by
    rw [addItems_geoms]; simp [Function.comp_def]
  obtain ⟨mn, mx, hen, hf⟩ := fixBox_ok
    (libs := w.data.libraries ++ [some { name := lname, elements := [some addr], layers := (addItems env.junk {} iss.flatten).layers }])
    (heap := fun b => if b = addr then { name := ename, geometries := (addItems env.junk {} iss.flatten).geoms } else w.heap b)
    (gs := iss.flatten.map Item.box) (by rw [hempty]; rfl) rfl (by simp only [if_true]; exact hg) (by simpa using hne)
  simp only [hf] at e
  refine ⟨_, { name := lname, elements := [some addr], layers := (addItems env.junk {} iss.flatten).layers }, e, by simp [hempty], ?_⟩
  have h1 : Ieee.rne (1 / 1000) = 1152921504606847 / 1152921504606846976 := by decide +kernel
  have h2 : Ieee.rne (1 / 1000000000) = 4835703278458517 / 4835703278458516698824704 := by decide +kernel
  rw [h1, h2]

/-- **C42** Reading into a layout that already has a library appends one, but computes the bounding box of the
*first* element again: the new element keeps the box (-1,-1),(-1,-1). -/
theorem C42_second_library (env : Env) (addr : Nat) (w : World) (content ename lname : List UInt8)
    (hr : Ready42 env w content ename lname) (ls : List (List UInt8)) (hl : Lines content ls) (iss : List (List Item))
    (hi : List.Forall₂ LineGives ls iss) (lib0 : Library) (more : List (Option Library)) (a : Nat) (els : List (Option Nat))
    (h0 : w.data.libraries = some lib0 :: more) (h1 : lib0.elements = some a :: els) (ha : a ≠ addr)
    (gs : List Geometry) (hg : (w.heap a).geometries = gs.map some) (hne : gs ≠ []) :
    ∃ w' lib, Msk.read env addr false w = .ok true w' ∧ w'.data.libraries = w.data.libraries ++ [some lib] ∧
      lib.elements = [some addr] ∧ (w'.heap addr).geometries = iss.flatten.map (fun i => some i.box) ∧
      (w'.heap addr).min = ⟨-1, -1⟩ ∧ (w'.heap addr).max = ⟨-1, -1⟩ ∧
      Encloses (w'.heap a).min (w'.heap a).max gs ∧ ∀ b, b ≠ addr → b ≠ a → w'.heap b = w.heap b := by
  have e := read_eq (addr := addr) hr hl hi
  obtain ⟨mn, mx, hen, hf⟩ := fixBox_ok
    (libs := w.data.libraries ++ [some { name := lname, elements := [some addr], layers := (addItems env.junk {} iss.flatten).layers }])
    (heap := fun b => if b = addr then { name := ename, geometries := (addItems env.junk {} iss.flatten).geoms } else w.heap b)
    (gs := gs) (by rw [h0]; rfl) h1 (by simp only [if_neg ha]; exact hg) hne
  simp only [hf] at e
  refine ⟨_, { name := lname, elements := [some addr], layers := (addItems env.junk {} iss.flatten).layers }, e, rfl, rfl, ?_, ?_, ?_, ?_, ?_⟩
  · simp [Ne.symm ha, addItems_geoms]
  · simp [Ne.symm ha]
  · simp [Ne.symm ha]
  · simpa using hen
  · intro b hb hb'
    simp [hb, hb']

/-! #### files as the format prescribes them -/

theorem layer_bytes {s : String} {n : Int} (h : LayerOf s n) : bytes s ≠ [] ∧ (bytes s).length < 7 ∧ ∀ c ∈ bytes s, 45 ≤ c.toNat := by
  cases h <;> decide +kernel

/-- the line of a rectangle is complete -/
theorem rect_line (r : Rect) (n : Int) (hn : LayerOf r.layer n) : RecLine r.text r.x r.y r.w r.h (bytes r.layer ++ [41]) := by
  obtain ⟨h1, h2, h3⟩ := layer_bytes hn
  refine ⟨decimal r.x, decimal r.y, decimal r.w, decimal r.h, [], [], ?_, decimal_field _, decimal_field _, decimal_field _,
    decimal_field _, by intro c hc; simp at hc, by simp, ?_, by simp⟩
  · have hc : bytes "," = [44] := by decide +kernel
    have hb : bytes ")" = [41] := by decide +kernel
    simp [Rect.text, hc, hb]
  · intro e he hb
    have := hb e (by simp)
    rcases List.mem_append.mp he with he | he
    · have := h3 e he; omega
    · simp at he; subst he; revert this; decide

theorem rect_chars (r : Rect) (n : Int) (hn : LayerOf r.layer n) : ∀ c ∈ r.text, 14 ≤ c.toNat := by
  obtain ⟨h1, h2, h3⟩ := layer_bytes hn
  have k1 : ∀ c ∈ bytes "REC(", 14 ≤ c.toNat := by decide +kernel
  have k2 : ∀ c ∈ bytes ",", 14 ≤ c.toNat := by decide +kernel
  have k3 : ∀ c ∈ bytes ")", 14 ≤ c.toNat := by decide +kernel
  have kd : ∀ v, ∀ c ∈ decimal v, 14 ≤ c.toNat := fun v c hc => by have := decimal_chars v c hc; omega
  intro c hc
  simp only [Rect.text, List.mem_append] at hc
  rcases hc with ((((((((((h | h) | h) | h) | h) | h) | h) | h) | h) | h) | h)
  · exact k1 c h
  · exact kd _ c h
  · exact k2 c h
  · exact kd _ c h
  · exact k2 c h
  · exact kd _ c h
  · exact k2 c h
  · exact kd _ c h
  · exact k2 c h
  · have := h3 c h; omega
  · exact k3 c h

/-- the numbers of the rectangle and its opposite corner are 32-bit integers -/
def RectFits (r : Rect) : Prop :=
  inI32 r.x ∧ inI32 r.y ∧ inI32 r.w ∧ inI32 r.h ∧ inI32 (r.x + r.w) ∧ inI32 (r.y + r.h)

/-- the item a rectangle line stands for -/
def rectItem (r : Rect) (n : Int) : Item := ⟨false, bytes r.layer, boxOf r.x r.y (r.x + r.w) (r.y + r.h) n⟩

theorem rect_gives (r : Rect) (n : Int) (hn : LayerOf r.layer n) (hf : RectFits r) (l : List UInt8) (hl : strip l = r.text) :
    LineGives l [rectItem r n] := by
  obtain ⟨h1, h2, h3⟩ := layer_bytes hn
  have hch := rect_chars r n hn
  have ht : CText r.text r.text := ⟨fun h => by have := hch 0 h; revert this; decide, .inl rfl⟩
  have hstart : ∃ u, r.text = 82 :: 69 :: 67 :: 40 :: u := by
    have : bytes "REC(" = [82, 69, 67, 40] := by decide +kernel
    simp only [Rect.text, this, List.append_assoc, List.cons_append, List.nil_append]
    exact ⟨_, rfl⟩
  obtain ⟨u, hu⟩ := hstart
  refine ⟨none, some (rectItem r n), ?_, ?_, ?_, rfl⟩
  · rw [hl]
    refine .unreadable ht (.inl ⟨0, by decide +kernel, by rw [hu]; simp, ?_⟩)
    have : bytes "BB(" = [66, 66, 40] := by decide +kernel
    rw [hu, this]
    simp
  · rw [hl]
    refine .known ⟨[], 40 :: u, ?_⟩ ht (rect_line r n hn) ?_ (.inl rfl) hn rfl
    · have : bytes "REC" = [82, 69, 67] := by decide +kernel
      rw [hu, this]; rfl
    · obtain ⟨f1, f2, f3, f4, f5, f6⟩ := hf
      exact ⟨f1, f2, f3, f4, f5, f6, by simp; omega⟩
  · rw [hl]
    intro _ t ht' ho
    have e : t = r.text := by rw [← text_cstr ht', text_cstr ht]
    have hT : bytes "TITLE" = [84, 73, 84, 76, 69] := by decide +kernel
    subst e
    cases ho with
    | first e => rw [hu, hT] at e; simp at e
    | second e => rw [hu, hT] at e; simp at e
    | text e => rw [hu, hT] at e; simp at e

theorem strip_id {l : List UInt8} (h : ∀ c ∈ l, 14 ≤ c.toNat) : strip l = l := by
  unfold strip
  apply List.filter_eq_self.mpr
  intro c hc
  have := h c hc
  simp only [decide_eq_true_eq]
  rintro rfl
  revert this
  decide

/-- **C42** A file written in the prescribed form — any header line without keywords, then any number of lines
`REC(x,y,w,h,layer)` with decimal 32-bit numbers and layer names of the table, with LF or CR LF line ends — reads
back as exactly those rectangles, in order, with the layer numbers of the table. -/
theorem C42_written_file (env : Env) (addr : Nat) (w : World) (cr : Bool) (header : List UInt8) (rs : List (Rect × Int))
    (ename lname : List UInt8)
    (hr : Ready42 env w (fileText (if cr then [13, 10] else [10]) header (rs.map Prod.fst)) ename lname)
    (hh : ∀ c ∈ header, c ≠ 10) (hb : ¬ bytes "BB" <:+: strip header) (hc : ¬ bytes "REC" <:+: strip header)
    (ht : ¬ bytes "TITLE" <:+: strip header)
    (hn : ∀ p ∈ rs, LayerOf p.1.layer p.2) (hf : ∀ p ∈ rs, RectFits p.1) (hne : rs ≠ []) (hempty : w.data.libraries = []) :
    ∃ w' lib, Msk.read env addr false w = .ok true w' ∧ w'.data.libraries = [some lib] ∧ lib.elements = [some addr] ∧
      (w'.heap addr).geometries =
        rs.map (fun p => some (boxOf p.1.x p.1.y (p.1.x + p.1.w) (p.1.y + p.1.h) p.2)) ∧
      lib.layers.map Layer.layer = (rs.map Prod.snd).foldl (fun seen n => if n ∈ seen then seen else seen ++ [n]) [] ∧
      (∀ n, (lib.layers.filter fun l => l.layer = n).map Layer.geometries =
        if n ∈ rs.map Prod.snd then [(rs.filter fun p => p.2 = n).map
          fun p => some (boxOf p.1.x p.1.y (p.1.x + p.1.w) (p.1.y + p.1.h) p.2)] else []) ∧
      Encloses (w'.heap addr).min (w'.heap addr).max
        (rs.map fun p => boxOf p.1.x p.1.y (p.1.x + p.1.w) (p.1.y + p.1.h) p.2) ∧
      ∀ b, b ≠ addr → w'.heap b = w.heap b := by
  -- the lines
  let sfx : List UInt8 := if cr then [13] else []
  have hsfx : (if cr then [13, 10] else [10] : List UInt8) = sfx ++ [10] := by cases cr <;> rfl
  have hs10 : 10 ∉ sfx := by cases cr <;> simp [sfx]
  have hstrip : ∀ l, strip (l ++ sfx) = strip l := by
    intro l
    unfold strip
    rw [List.filter_append]
    cases cr <;> simp [sfx]
  have hls : Lines (fileText (if cr then [13, 10] else [10]) header (rs.map Prod.fst))
      ((header ++ sfx) :: rs.map fun p => p.1.text ++ sfx) := by
    unfold fileText
    rw [hsfx]
    have : header ++ (sfx ++ [10]) ++ ((rs.map Prod.fst).map fun r => r.text ++ (sfx ++ [10])).flatten =
        (header ++ sfx) ++ 10 :: ((rs.map Prod.fst).map fun r => r.text ++ (sfx ++ [10])).flatten := by simp
    rw [this]
    refine .cons (by simp only [List.mem_append, not_or]; exact ⟨fun h => hh 10 h rfl, hs10⟩) ?_
    have key : ∀ rs : List (Rect × Int), (∀ p ∈ rs, LayerOf p.1.layer p.2) →
        Lines ((rs.map Prod.fst).map fun r => r.text ++ (sfx ++ [10])).flatten (rs.map fun p => p.1.text ++ sfx) := by
      intro rs
      induction rs with
      | nil => intro _; exact .nil
      | cons p rs ih =>
        intro hn
        have e : (((p :: rs).map Prod.fst).map fun r => r.text ++ (sfx ++ [10])).flatten =
            (p.1.text ++ sfx) ++ 10 :: ((rs.map Prod.fst).map fun r => r.text ++ (sfx ++ [10])).flatten := by simp
        rw [e, List.map_cons]
        refine .cons ?_ (ih fun q hq => hn q (List.mem_cons_of_mem _ hq))
        simp only [List.mem_append, not_or]
        refine ⟨fun h => ?_, hs10⟩
        have := rect_chars p.1 p.2 (hn p List.mem_cons_self) 10 h
        revert this; decide
    exact key rs hn
  have hgives : List.Forall₂ LineGives ((header ++ sfx) :: rs.map fun p => p.1.text ++ sfx)
      ([] :: rs.map fun p => [rectItem p.1 p.2]) := by
    refine .cons ⟨none, none, by rw [hstrip]; exact .absent hb, by rw [hstrip]; exact .absent hc,
      by rw [hstrip]; exact fun h => absurd h ht, rfl⟩ ?_
    rw [List.forall₂_map_left_iff, List.forall₂_map_right_iff, List.forall₂_same]
    intro p hp
    apply rect_gives p.1 p.2 (hn p hp) (hf p hp)
    rw [hstrip]
    exact strip_id (rect_chars p.1 p.2 (hn p hp))
  have hflat : ([] :: rs.map fun p => [rectItem p.1 p.2]).flatten = rs.map fun p => rectItem p.1 p.2 := by
    rw [List.flatten_cons, List.nil_append, ← List.flatMap_def, List.map_eq_flatMap]
  obtain ⟨w', lib, e, h1, _, h2, _, _, _, h3, h6, h4, h5, _, h7⟩ := C42_read env addr w _ ename lname hr _ hls _ hgives
    (by rw [hflat]; simpa using hne) hempty
  rw [hflat] at h3 h4 h5 h6
  refine ⟨w', lib, e, h1, h2, ?_, ?_, ?_, by rw [List.map_map] at h6; exact h6, h7⟩
  · rw [h3, List.map_map]; rfl
  · rw [h4]
    -- the order of first occurrences
    have key : ∀ (rs : List (Rect × Int)) (seen : List Int),
        seen ++ layerOrder seen (rs.map fun p => rectItem p.1 p.2) =
          (rs.map Prod.snd).foldl (fun seen n => if n ∈ seen then seen else seen ++ [n]) seen := by
      intro rs
      induction rs with
      | nil => intro seen; simp [layerOrder]
      | cons p rs ih =>
        intro seen
        simp only [List.map_cons, layerOrder, List.foldl_cons, rectItem, boxOf, Bool.false_eq_true, false_or]
        by_cases hp : p.2 ∈ seen
        · rw [if_pos hp, if_neg (by simpa using hp)]
          exact ih seen
        · rw [if_neg hp, if_pos hp, ← ih (seen ++ [p.2]), List.append_assoc, List.singleton_append]
          congr 2
          apply order_seen
          intro x
          simp [or_comm]
    simpa using key rs []
  · intro n
    have := h5 n (by
      intro i hi hb
      obtain ⟨p, _, rfl⟩ := List.mem_map.mp hi
      cases hb)
    rw [this]
    have hfil : (rs.map fun p => rectItem p.1 p.2).filter (fun i => i.box.layer = n) =
        (rs.filter fun p => p.2 = n).map fun p => rectItem p.1 p.2 := by
      rw [List.filter_map]; rfl
    rw [hfil]
    cases hx : rs.filter fun p => p.2 = n with
    | nil =>
      rw [if_neg]
      · rfl
      · intro hm
        obtain ⟨p, hp, rfl⟩ := List.mem_map.mp hm
        have : p ∈ rs.filter fun q => q.2 = p.2 := by simp [hp]
        rw [hx] at this; simp at this
    | cons p ps =>
      rw [if_pos]
      · simp [rectItem]
      · have : p ∈ rs.filter fun q => q.2 = n := by rw [hx]; simp
        simp only [List.mem_filter, decide_eq_true_eq] at this
        exact List.mem_map.mpr ⟨p, this.1, this.2⟩

/-! ### C43 -/

/-- **C43** A null layout is refused with `false` and touches neither layout nor elements. -/
theorem C43_null_layout (env : Env) (addr : Nat) (w : World) :
    ∃ r, Msk.read env addr true w = .ok false ⟨r, w.data, w.heap⟩ := ⟨_, rfl⟩

/-- **C43** If the file cannot be opened, a reader without an earlier successful `Read` returns `false` and only
resets the file format; after a successful `Read` the same failure deletes the first layout's element twice. -/
theorem C43_missing_file (env : Env) (addr : Nat) (w : World) (hs : w.reader.stuck = false)
    (hf : env.fs (narrow w.reader.fileName) = none) :
    Msk.read env addr false w = if w.reader.active then .ub
      else .ok false { w with data := { w.data with fileFormat := .undefined } } := by
  unfold Msk.read
  simp only [Bool.false_eq_true, if_false, hs, hf, Option.map_none]

/-- **C43** A successful `Read` leaves the reader in the state in which the next failure is undefined. -/
theorem C43_success_then_failure (env env' : Env) (addr addr' : Nat) (w w' : World) (h : Msk.read env addr false w = .ok true w')
    (data' : LayoutData) (hf : env'.fs (narrow w'.reader.fileName) = none) :
    Msk.read env' addr' false { w' with data := data' } = .ub := by
  have hw : w'.reader.stuck = false ∧ w'.reader.active = true := by
    unfold Msk.read at h
    simp only [Bool.false_eq_true, if_false] at h
    split at h
    · split at h
      · cases h
      · injection h with h1 h2; cases h1
    · split at h
      · split at h
        · split at h
          · injection h with h1 h2
            rw [← h2]; exact ⟨rfl, rfl⟩
          · cases h
        · cases h
      · injection h with h1 h2; cases h1
  rw [C43_missing_file env' addr' { w' with data := data' } hw.1 hf]
  simp [hw.2]

/-- **C43** One line without a meaning anywhere in the file makes the whole `Read` undefined — there is no clean
error. -/
theorem C43_bad_line (env : Env) (addr : Nat) (w : World) (content ename lname : List UInt8) (hr : Ready42 env w content ename lname)
    (ls : List (List UInt8)) (hl : Lines content ls) (hb : ∃ l ∈ ls, ¬ ∃ is, LineGives l is) :
    Msk.read env addr false w = .ub := by
  unfold Msk.read
  simp only [Bool.false_eq_true, if_false, hr.stuck, hr.file, Option.map_some, hr.ename, hr.lname, lines_eq hl,
    readLines_ub (lines_nolf hl) hb]

/-- **C43** A file without any box read into an empty layout is undefined. -/
theorem C43_no_geometry (env : Env) (addr : Nat) (w : World) (content ename lname : List UInt8) (hr : Ready42 env w content ename lname)
    (ls : List (List UInt8)) (hl : Lines content ls) (iss : List (List Item)) (hi : List.Forall₂ LineGives ls iss)
    (hnone : iss.flatten = []) (hempty : w.data.libraries = []) : Msk.read env addr false w = .ub := by
  rw [read_eq hr hl hi]
  dsimp only
  rw [fixBox_ub]
  intro lib more a els g gs h1 h2
  rw [hempty] at h1
  simp only [List.nil_append, List.cons.injEq, Option.some.injEq] at h1
  obtain ⟨rfl, rfl⟩ := h1
  simp only [List.cons.injEq, Option.some.injEq] at h2
  obtain ⟨rfl, _⟩ := h2
  simp [hnone, addItems]

/-- **C43** Exact outcome on every file, for an empty layout: `Read` returns true if every line has a meaning and
some line gives a box, and is undefined in all other cases; it never returns false and never throws. -/
theorem C43_exact (env : Env) (addr : Nat) (w : World) (content ename lname : List UInt8) (hr : Ready42 env w content ename lname)
    (hempty : w.data.libraries = []) :
    ((∃ ls iss, Lines content ls ∧ List.Forall₂ LineGives ls iss ∧ iss.flatten ≠ []) → ∃ w', Msk.read env addr false w = .ok true w') ∧
    ((¬ ∃ ls iss, Lines content ls ∧ List.Forall₂ LineGives ls iss ∧ iss.flatten ≠ []) → Msk.read env addr false w = .ub) := by
  constructor
  · rintro ⟨ls, iss, hl, hi, hne⟩
    obtain ⟨w', _, e, _⟩ := C42_read env addr w content ename lname hr ls hl iss hi hne hempty
    exact ⟨w', e⟩
  · intro hno
    have hl := lines_total content
    by_cases hb : ∃ l ∈ fileLines content, ¬ ∃ is, LineGives l is
    · exact C43_bad_line env addr w content ename lname hr _ hl hb
    · have hall : ∀ l ∈ fileLines content, ∃ is, LineGives l is := by
        intro l hl'
        by_contra h
        exact hb ⟨l, hl', h⟩
      obtain ⟨iss, hi⟩ := items_total hall
      by_cases hn : iss.flatten = []
      · exact C43_no_geometry env addr w content ename lname hr _ hl iss hi hn hempty
      · exact absurd ⟨_, iss, hl, hi, hn⟩ hno

/-- a line whose rectangle section is undefined makes `Read` undefined -/
theorem ub_of_rec {env : Env} {addr : Nat} {w : World} {content ename lname : List UInt8} (hr : Ready42 env w content ename lname)
    {ls : List (List UInt8)} (hl : Lines content ls) {l : List UInt8} (hm : l ∈ ls) (hc : bytes "REC" <:+: strip l)
    (hp : parseRecLine (strip l) = .ub) : Msk.read env addr false w = .ub := by
  apply C43_bad_line env addr w content ename lname hr ls hl
  refine ⟨l, hm, ?_⟩
  rintro ⟨is, o1, o2, _, h2, _⟩
  have := rec_sound (env := env) {} h2 hc
  unfold readRectangle at this
  rw [hp] at this
  cases this

/-- **C43** A rectangle line with a number, a sum or a layer name that does not fit is undefined. -/
theorem C43_rec_overflow (env : Env) (addr : Nat) (w : World) (content ename lname : List UInt8) (hr : Ready42 env w content ename lname)
    (ls : List (List UInt8)) (hl : Lines content ls) (l t : List UInt8) (hm : l ∈ ls) (ht : CText (strip l) t)
    (hc : bytes "REC" <:+: strip l) (x y ww h : Int) (tok : List UInt8) (hrec : RecLine t x y ww h tok)
    (hno : ¬ RecFits x y ww h tok) : Msk.read env addr false w = .ub := by
  apply ub_of_rec hr hl hm hc
  rw [← text_cstr ht] at hrec
  have hne : tok ≠ [] := by obtain ⟨_, _, _, _, _, _, _, _, _, _, _, _, hne, _⟩ := hrec; exact hne
  obtain ⟨name, hn, _⟩ := layerName_total hne
  rw [rec_parse hrec hn, if_neg hno]

/-- **C43** A rectangle line that ends or breaks off after its first number, second, third or fourth number, or
before any number (`REC(` and nothing more) is undefined. -/
theorem C43_rec_incomplete (env : Env) (addr : Nat) (w : World) (content ename lname : List UInt8) (hr : Ready42 env w content ename lname)
    (ls : List (List UInt8)) (hl : Lines content ls) (l t : List UInt8) (hm : l ∈ ls) (ht : CText (strip l) t)
    (hc : bytes "REC" <:+: strip l)
    (hread : (∃ u, t = bytes "REC(" ++ u ∧ (Blank u ∨ ∃ f v r, u = f ++ r ∧ Field f v)) ∨ t = bytes "REC")
    (hinc : ¬ ∃ x y ww h tok, RecLine t x y ww h tok) : Msk.read env addr false w = .ub := by
  apply ub_of_rec hr hl hm hc
  have e := text_cstr ht
  rcases rec_cases (strip l) with hu | h | h
  · rw [e] at hu
    exfalso
    rcases hread with ⟨u, rfl, hu'⟩ | rfl
    · rcases hu with hd | ⟨u', e', hn, hb⟩
      · exact not_differs_append _ _ hd
      · have : u = u' := by simpa using e'
        subst this
        rcases hu' with h | ⟨f, v, r, h1, h2⟩
        · exact hb h
        · exact hn ⟨f, v, r, h1, h2⟩
    · rcases hu with hd | ⟨u', e', _⟩
      · exact not_differs_prefix (by decide +kernel) hd
      · have := congrArg List.length e'
        rw [List.length_append] at this
        have h1 : (bytes "REC").length = 3 := by decide +kernel
        have h2 : (bytes "REC(").length = 4 := by decide +kernel
        omega
  · rw [e] at h; exact absurd h hinc
  · exact h

/-! ### C50 -/

theorem lower_iff (c : UInt8) (a b : UInt8) (h : (a = 107 ∧ b = 75) ∨ (a = 115 ∧ b = 83) ∨ (a = 109 ∧ b = 77)) :
    (lower c == a) = true ↔ (c = a ∨ c = b) := by
  have key : ∀ n : Fin 256, ((lower (UInt8.ofNat n) == 107) = true ↔ (UInt8.ofNat n = 107 ∨ UInt8.ofNat n = 75)) ∧
      ((lower (UInt8.ofNat n) == 115) = true ↔ (UInt8.ofNat n = 115 ∨ UInt8.ofNat n = 83)) ∧
      ((lower (UInt8.ofNat n) == 109) = true ↔ (UInt8.ofNat n = 109 ∨ UInt8.ofNat n = 77)) := by decide +kernel
  have := key ⟨c.toNat, c.toNat_lt⟩
  simp only [UInt8.ofNat_toNat] at this
  rcases h with ⟨rfl, rfl⟩ | ⟨rfl, rfl⟩ | ⟨rfl, rfl⟩
  · exact this.1
  · exact this.2.1
  · exact this.2.2

theorem isWord_iff (c : UInt8) : isWord c = true ↔ WordChar c := by
  simp only [isWord, isDigit, WordChar, Bool.or_eq_true, Bool.and_eq_true, decide_eq_true_eq, UInt8.le_iff_toNat_le,
    beq_iff_eq, ← UInt8.toNat_inj]
  have e1 : (48 : UInt8).toNat = 48 := rfl
  have e2 : (57 : UInt8).toNat = 57 := rfl
  have e3 : (97 : UInt8).toNat = 97 := rfl
  have e4 : (122 : UInt8).toNat = 122 := rfl
  have e5 : (65 : UInt8).toNat = 65 := rfl
  have e6 : (90 : UInt8).toNat = 90 := rfl
  have e7 : (95 : UInt8).toNat = 95 := rfl
  rw [e1, e2, e3, e4, e5, e6, e7]
  tauto

theorem nameMatches_iff (s : List UInt8) : nameMatches s = true ↔ MskName s := by
  unfold nameMatches
  constructor
  · intro h
    split at h
    · rename_i a b c d w rest hs
      simp only [Bool.and_eq_true] at h
      obtain ⟨⟨⟨⟨h1, h2⟩, h3⟩, h4⟩, h5⟩ := h
      refine ⟨rest.reverse, w, c, b, a, ?_, (isWord_iff w).mp h5, (lower_iff c 109 77 (by simp)).mp h3,
        (lower_iff b 115 83 (by simp)).mp h2, (lower_iff a 107 75 (by simp)).mp h1⟩
      have hd : d = 46 := by simpa using h4
      subst hd
      have := congrArg List.reverse hs
      rw [List.reverse_reverse] at this
      rw [this]
      simp
    · cases h
  · rintro ⟨p, w, m, k, x, rfl, hw, hm, hk, hx⟩
    have e : (p ++ [w, 46, m, k, x]).reverse = x :: k :: m :: 46 :: w :: p.reverse := by simp
    rw [e]
    simp only [(lower_iff m 109 77 (by simp)).mpr hm, (lower_iff k 115 83 (by simp)).mpr hk,
      (lower_iff x 107 75 (by simp)).mpr hx, (isWord_iff w).mpr hw]
    rfl

theorem firstLine (content : List UInt8) (l : List UInt8) (ls : List (List UInt8)) (h : Lines content (l :: ls)) :
    (7 ≤ l.length ∧ l.take 7 = lit "VERSION") ↔ bytes "VERSION" <+: content := by
  have hl : l <+: content ∧ (l = content ∨ (content.drop l.length).head? = some 10) := by
    cases h with
    | last => exact ⟨List.prefix_refl _, .inl rfl⟩
    | cons => exact ⟨List.prefix_append _ _, .inr (by simp)⟩
  have hlen : (bytes "VERSION").length = 7 := by decide +kernel
  constructor
  · rintro ⟨h1, h2⟩
    have : lit "VERSION" <+: l := by rw [← h2]; exact List.take_prefix _ _
    exact this.trans hl.1
  · rintro ⟨r, rfl⟩
    by_cases h7 : 7 ≤ l.length
    · refine ⟨h7, ?_⟩
      obtain ⟨t, ht⟩ := hl.1
      have := congrArg (List.take 7) ht
      rw [List.take_append_of_le_length h7, List.take_append_of_le_length (by omega)] at this
      rw [this]
      exact List.take_of_length_le (by omega)
    · exfalso
      rcases hl.2 with h | h
      · rw [h, List.length_append] at h7; omega
      · have hv : bytes "VERSION" = [86, 69, 82, 83, 73, 79, 78] := by decide +kernel
        rw [hv] at h
        generalize l.length = n at h7 h
        have : n = 0 ∨ n = 1 ∨ n = 2 ∨ n = 3 ∨ n = 4 ∨ n = 5 ∨ n = 6 := by omega
        rcases this with rfl | rfl | rfl | rfl | rfl | rfl | rfl <;> simp at h

/-- **C50** `GetReader` gives a reader exactly for the names that end in a word character and `.msk` in any case,
of existing files whose text begins with `VERSION`; the reader is then set to that file. -/
theorem C50_get_reader (env : Env) (name : List Nat) (r : Reader) :
    getReader env name = some r ↔
      (MskName (narrow name) ∧ (∃ content, env.fs (narrow name) = some content ∧ bytes "VERSION" <+: content)) ∧
        r = { fileName := name, stuck := false, active := false } := by
  unfold getReader isMyFormat
  by_cases hn : nameMatches (narrow name) = true
  · have hm := (nameMatches_iff _).mp hn
    rw [if_pos hn]
    cases hf : env.fs (narrow name) with
    | none => simp
    | some content =>
      have hL := lines_total content
      cases hl : fileLines content with
      | nil =>
        rw [hl] at hL
        have : content = [] := by cases hL; rfl
        subst this
        simp only [Bool.false_eq_true, if_false, fileLines]
        constructor
        · intro h; cases h
        · rintro ⟨⟨_, c, hc, hv⟩, _⟩
          injection hc with hc
          subst hc
          have := hv.length_le
          have h7 : (bytes "VERSION").length = 7 := by decide +kernel
          rw [h7] at this
          simp at this
      | cons l ls =>
        rw [hl] at hL
        have hv := firstLine content l ls hL
        simp only [Bool.false_eq_true, if_false, hl]
        by_cases h7 : l.length < 7
        · rw [if_pos h7]
          constructor
          · intro h; cases h
          · rintro ⟨⟨_, c, hc, hv'⟩, _⟩
            injection hc with hc
            subst hc
            have := (hv.mpr hv').1
            omega
        · rw [if_neg h7]
          by_cases ht : l.take 7 = lit "VERSION"
          · simp only [ht, decide_true, Option.some.injEq]
            constructor
            · rintro rfl
              exact ⟨⟨hm, content, rfl, hv.mp ⟨by omega, ht⟩⟩, rfl⟩
            · rintro ⟨_, rfl⟩; rfl
          · simp only [ht, decide_false]
            constructor
            · intro h; cases h
            · rintro ⟨⟨_, c, hc, hv'⟩, _⟩
              injection hc with hc
              subst hc
              exact absurd (hv.mpr hv').2 ht
  · rw [if_neg hn]
    constructor
    · intro h; cases h
    · rintro ⟨⟨h, _⟩, _⟩
      exact absurd ((nameMatches_iff _).mpr h) hn

/-- **C50** End to end: a reader obtained from `GetReader` reads the file it was obtained for (C42, C43 apply). -/
theorem C50_reader_ready (env : Env) (name : List Nat) (r : Reader) (h : getReader env name = some r)
    (ename lname : List UInt8) (h1 : env.utf8 (elemName name) = some ename) (h2 : env.utf8 name = some lname) :
    ∃ content, env.fs (narrow name) = some content ∧ ∀ data heap, Ready42 env ⟨r, data, heap⟩ content ename lname := by
  obtain ⟨⟨_, content, hf, _⟩, rfl⟩ := (C50_get_reader env name r).mp h
  exact ⟨content, hf, fun data heap => ⟨rfl, hf, h1, h2⟩⟩

/-- **C50** Asking for an existing but empty file refuses it and leaves the reader blocked: it refuses every later
file, too, whatever the files are by then. -/
theorem C50_empty_file_blocks (env : Env) (name : List Nat) (r : Reader) (hr : r.stuck = false) (hn : MskName (narrow name))
    (hf : env.fs (narrow name) = some []) :
    ∃ r', isMyFormat env name r = .ok false r' ∧
      ∀ calls : List (Env × List Nat), ∃ r'', calls.foldlM (fun _ (c : Env × List Nat) => isMyFormat c.1 c.2) false r' = .ok false r'' := by
  refine ⟨{ r with fileName := name, stuck := true }, ?_, ?_⟩
  · unfold isMyFormat
    rw [if_pos ((nameMatches_iff _).mpr hn)]
    simp only [hr, Bool.false_eq_true, if_false, hf, fileLines]
  · intro calls
    refine ⟨{ r with fileName := name, stuck := true }, ?_⟩
    induction calls with
    | nil => rfl
    | cons c calls ih =>
      rw [List.foldlM_cons]
      have : isMyFormat c.1 c.2 { r with fileName := name, stuck := true } = .ok false { r with fileName := name, stuck := true } := by
        unfold isMyFormat
        split <;> simp
      rw [M.run_bind_ok this]
      exact ih

theorem findLastOf_spec (c : Nat) (p q : List Nat) (h : c ∉ q) : findLastOf c (p ++ c :: q) = p.length := by
  unfold findLastOf
  have e : (p ++ c :: q).reverse = q.reverse ++ c :: p.reverse := by simp
  have hi : (q.reverse ++ c :: p.reverse).findIdx? (· == c) = some q.length := by
    rw [List.findIdx?_append]
    have : q.reverse.findIdx? (· == c) = none := by
      rw [List.findIdx?_eq_none_iff]
      intro x hx
      simp only [beq_eq_false_iff_ne]
      rintro rfl
      exact h (by simpa using hx)
    rw [this]
    simp [List.findIdx?_cons]
  rw [e, hi]
  simp

theorem findLastOf_none (c : Nat) (s : List Nat) (h : c ∉ s) : findLastOf c s = 18446744073709551615 := by
  unfold findLastOf
  have : s.reverse.findIdx? (· == c) = none := by
    rw [List.findIdx?_eq_none_iff]
    intro x hx
    simp only [beq_eq_false_iff_ne]
    rintro rfl
    exact h (by simpa using hx)
  rw [this]

/-- **C50** The element is named after the file: the part between the last `/` and the last `.`. -/
theorem C50_element_name (dir base ext : List Nat) (hd : dir = [] ∨ ∃ d, dir = d ++ [47]) (hb : 47 ∉ base)
    (he : 46 ∉ ext ∧ 47 ∉ ext) (hl : (dir ++ base ++ 46 :: ext).length < 2 ^ 64) :
    elemName (dir ++ base ++ 46 :: ext) = base := by
  have hdot : findLastOf 46 (dir ++ base ++ 46 :: ext) = (dir ++ base).length := findLastOf_spec 46 _ _ he.1
  have hlen : (dir ++ base).length + 1 + ext.length < 2 ^ 64 := by
    simp only [List.length_append, List.length_cons] at hl ⊢; omega
  unfold elemName
  rw [hdot]
  rcases hd with rfl | ⟨d, rfl⟩
  · have hs : findLastOf 47 ([] ++ base ++ 46 :: ext) = 18446744073709551615 := by
      apply findLastOf_none
      simp [hb, he.2]
    simp only [hs, if_true]
    simp [substr]
  · have hs : findLastOf 47 (d ++ [47] ++ base ++ 46 :: ext) = d.length := by
      have : d ++ [47] ++ base ++ 46 :: ext = d ++ 47 :: (base ++ 46 :: ext) := by simp
      rw [this]
      apply findLastOf_spec
      simp [hb, he.2]
    have hd' : d.length < 18446744073709551615 := by
      simp only [List.length_append, List.length_cons, List.length_nil] at hlen
      omega
    simp only [hs, if_neg (show d.length ≠ 18446744073709551615 by omega)]
    have e1 : subSz (subSz (d ++ [47] ++ base).length d.length) 1 = base.length := by
      have hL : (d ++ [47] ++ base).length = d.length + 1 + base.length := by simp; omega
      rw [hL] at hlen ⊢
      have a : subSz (d.length + 1 + base.length) d.length = 1 + base.length := by
        rw [subSz_eq _ _ (by omega) (by omega)]; omega
      rw [a, subSz_eq _ _ (by omega) (by omega)]
      omega
    rw [e1]
    unfold substr
    have e2 : d ++ [47] ++ base ++ 46 :: ext = (d ++ [47]) ++ (base ++ 46 :: ext) := by simp
    rw [e2, List.drop_append, List.take_append]
    simp


/-! ### the hypotheses can be met -/

/-- a file `d/x.msk` with the given text, and no other file -/
def exEnv (text : List UInt8) : Env :=
  { fs := fun n => if n = lit "d/x.msk" then some text else none, utf8 := fun s => some (narrow s) }

/-- the file name as a wide string -/
def exName : List Nat := [100, 47, 120, 46, 109, 115, 107]

/-- a fresh reader set to that file, with an empty layout -/
def exWorld (libs : List (Option Library)) (heap : Elements) : World :=
  ⟨{ fileName := exName }, { libraries := libs }, heap⟩

theorem ex_ready (text : List UInt8) (libs : List (Option Library)) (heap : Elements) :
    Ready42 (exEnv text) (exWorld libs heap) text (lit "x") (lit "d/x.msk") where
  stuck := rfl
  file := by
    have : narrow exName = lit "d/x.msk" := by decide +kernel
    simp [exWorld, exEnv, this]
  ename := by
    have : narrow (elemName exName) = lit "x" := by decide +kernel
    simp [exWorld, exEnv, this]
  lname := by
    have : narrow exName = lit "d/x.msk" := by decide +kernel
    simp [exWorld, exEnv, this]

/-- C42_written_file at work: two rectangles, one with a negative width, CR LF line ends. -/
example : ∃ w' lib, Msk.read (exEnv (fileText [13, 10] (bytes "VERSION 1") [⟨1, 2, 3, 4, "NW"⟩, ⟨5, 6, -2, 2, "ME"⟩])) 7 false
      (exWorld [] fun _ => {}) = .ok true w' ∧ w'.data.libraries = [some lib] ∧ lib.layers.map Layer.layer = [1, 23] ∧
      (w'.heap 7).geometries = [some (boxOf 1 2 4 6 1), some (boxOf 5 6 3 8 23)] := by
  obtain ⟨w', lib, h1, h2, _, h3, h4, _⟩ := C42_written_file
    (exEnv (fileText [13, 10] (bytes "VERSION 1") [⟨1, 2, 3, 4, "NW"⟩, ⟨5, 6, -2, 2, "ME"⟩])) 7 (exWorld [] fun _ => {}) true
    (bytes "VERSION 1") [(⟨1, 2, 3, 4, "NW"⟩, 1), (⟨5, 6, -2, 2, "ME"⟩, 23)] (lit "x") (lit "d/x.msk") (ex_ready _ _ _)
    (by decide +kernel) (by decide +kernel) (by decide +kernel) (by decide +kernel)
    (by simp only [List.mem_cons, List.not_mem_nil, or_false, forall_eq_or_imp, forall_eq]; exact ⟨.nw, .me⟩)
    (by simp only [List.mem_cons, List.not_mem_nil, or_false, forall_eq_or_imp, forall_eq]; unfold RectFits inI32; decide)
    (by simp) rfl
  exact ⟨w', lib, h1, h2, h4, h3⟩

theorem ex_int (v : Nat) (s : List UInt8) (hd : Digits s) (hv : value s = v) : Field s v :=
  ⟨[], s, rfl, by intro c hc; simp at hc, hv ▸ .plain hd⟩

/-- a `BB` line with blanks before a number -/
theorem ex_bb : LineGives (bytes "BB(0, 0,9,8)") [⟨true, bytes "BB", boxOf 0 0 9 8 (-5)⟩] := by
  have hd : ∀ c : UInt8, IsDig c → Digits [c] := fun c h => ⟨by simp, by simpa using h⟩
  have hs : strip (bytes "BB(0, 0,9,8)") = bytes "BB(0, 0,9,8)" := by decide +kernel
  have e : bytes "BB(0, 0,9,8)" = bytes "BB(" ++ ([48] ++ 44 :: ([32, 48] ++ 44 :: ([57] ++ 44 :: ([56] ++ [41])))) := by decide +kernel
  refine ⟨some ⟨true, bytes "BB", boxOf 0 0 9 8 (-5)⟩, none, ?_, ?_, ?_, rfl⟩
  · rw [hs]
    have := BBGives.read (l := bytes "BB(0, 0,9,8)") (t := bytes "BB(0, 0,9,8)") (vs := [0, 0, 9, 8]) (by decide +kernel)
      ⟨by decide +kernel, .inl rfl⟩ e
      (.more (ex_int 0 [48] (hd _ (by unfold IsDig; decide)) (by decide +kernel))
        (.more ⟨[32], [48], rfl, by intro c hc; simp at hc; subst hc; decide, .plain (hd 48 (by unfold IsDig; decide))⟩
          (.more (ex_int 9 [57] (hd _ (by unfold IsDig; decide)) (by decide +kernel))
            (.last (ex_int 8 [56] (hd _ (by unfold IsDig; decide)) (by decide +kernel))
              (by intro c hc; simp at hc; subst hc; unfold IsDig; decide) (.inl rfl)))))
      (by simp) (by unfold BBFits inI32; decide)
    exact this
  · exact .absent (by decide +kernel)
  · exact fun h => absurd h (by decide +kernel)

/-- a rectangle on a layer that is not in the table contributes nothing -/
theorem ex_unknown : LineGives (bytes "REC(1,2,3,4,ZZ)") [] := by
  have hd : ∀ c : UInt8, IsDig c → Digits [c] := fun c h => ⟨by simp, by simpa using h⟩
  have hs : strip (bytes "REC(1,2,3,4,ZZ)") = bytes "REC(1,2,3,4,ZZ)" := by decide +kernel
  refine ⟨none, none, .absent (by decide +kernel), ?_, fun h => absurd h (by decide +kernel), rfl⟩
  rw [hs]
  refine .unknown (x := 1) (y := 2) (w := 3) (h := 4) (tok := bytes "ZZ)") (name := bytes "ZZ") (t := bytes "REC(1,2,3,4,ZZ)")
    ⟨by decide +kernel, .inl rfl⟩ ⟨[49], [50], [51], [52], [], [], by decide +kernel,
      ex_int 1 _ (hd _ (by unfold IsDig; decide)) (by decide +kernel), ex_int 2 _ (hd _ (by unfold IsDig; decide)) (by decide +kernel),
      ex_int 3 _ (hd _ (by unfold IsDig; decide)) (by decide +kernel), ex_int 4 _ (hd _ (by unfold IsDig; decide)) (by decide +kernel),
      by intro c hc; simp at hc, by decide +kernel, ?_, by simp⟩ ⟨by unfold inI32; decide, by unfold inI32; decide,
      by unfold inI32; decide, by unfold inI32; decide, by unfold inI32; decide, by unfold inI32; decide, by decide +kernel⟩
    (.inl (by decide +kernel)) ?_
  · have : bytes "ZZ)" = [90, 90, 41] := by decide +kernel
    rw [this]
    intro e he hb
    have := hb e (by simp)
    simp at he
    rcases he with rfl | rfl | rfl <;> revert this <;> decide
  · rintro ⟨s, n, h, e⟩
    cases h <;> revert e <;> decide +kernel

/-- the text of the following examples -/
def exText : List UInt8 := bytes "BB(0, 0,9,8)\nREC(1,2,3,4,ZZ)\nREC(1,2,3,4,ME)"

theorem ex_lines : Lines exText [bytes "BB(0, 0,9,8)", bytes "REC(1,2,3,4,ZZ)", bytes "REC(1,2,3,4,ME)"] := by
  have : fileLines exText = [bytes "BB(0, 0,9,8)", bytes "REC(1,2,3,4,ZZ)", bytes "REC(1,2,3,4,ME)"] := by decide +kernel
  rw [← this]
  exact lines_total _

theorem ex_gives : List.Forall₂ LineGives [bytes "BB(0, 0,9,8)", bytes "REC(1,2,3,4,ZZ)", bytes "REC(1,2,3,4,ME)"]
    [[⟨true, bytes "BB", boxOf 0 0 9 8 (-5)⟩], [], [⟨false, bytes "ME", boxOf 1 2 4 6 23⟩]] :=
  .cons ex_bb (.cons ex_unknown (.cons (rect_gives ⟨1, 2, 3, 4, "ME"⟩ 23 .me (by unfold RectFits inI32; decide) _ (by decide +kernel)) .nil))

/-- C42_read at work: the `BB` line, an unknown layer and a rectangle. -/
example : ∃ w' lib, Msk.read (exEnv exText) 7 false (exWorld [] fun _ => {}) = .ok true w' ∧ w'.data.libraries = [some lib] ∧
    lib.layers.map Layer.layer = [-5, 23] ∧ (w'.heap 7).geometries = [some (boxOf 0 0 9 8 (-5)), some (boxOf 1 2 4 6 23)] := by
  obtain ⟨w', lib, h1, h2, _, _, _, _, _, h3, _, h4, _⟩ := C42_read (exEnv exText) 7 (exWorld [] fun _ => {}) _ _ _
    (ex_ready _ _ _) _ ex_lines _ ex_gives (by simp) rfl
  exact ⟨w', lib, h1, h2, h4.trans (by decide +kernel), h3⟩

/-- C42_second_library at work. -/
example : ∃ w' lib, Msk.read (exEnv exText) 7 false (exWorld [some { elements := [some 3] }]
      fun b => if b = 3 then { geometries := [some (boxOf 5 5 6 7 1)] } else {}) = .ok true w' ∧
    w'.data.libraries = [some { elements := [some 3] }, some lib] ∧ (w'.heap 7).min = ⟨-1, -1⟩ := by
  obtain ⟨w', lib, h1, h2, _, _, h3, _⟩ := C42_second_library (exEnv exText) 7 (exWorld [some { elements := [some 3] }]
    fun b => if b = 3 then { geometries := [some (boxOf 5 5 6 7 1)] } else {}) _ _ _ (ex_ready _ _ _) _ ex_lines _ ex_gives
    { elements := [some 3] } [] 3 [] rfl rfl (by decide) [boxOf 5 5 6 7 1] rfl (by simp)
  exact ⟨w', lib, h1, h2, h3⟩

/-- C43_missing_file and C43_success_then_failure at work: the file disappears after a successful `Read`. -/
example : ∃ w', Msk.read (exEnv exText) 7 false (exWorld [] fun _ => {}) = .ok true w' ∧
    Msk.read { exEnv exText with fs := fun _ => none } 8 false w' = .ub := by
  obtain ⟨w', _, h1, _⟩ := C42_read (exEnv exText) 7 (exWorld [] fun _ => {}) _ _ _
    (ex_ready _ _ _) _ ex_lines _ ex_gives (by simp) rfl
  exact ⟨w', h1, C43_success_then_failure _ _ 7 8 _ w' h1 w'.data rfl⟩

theorem ex_incomplete : ¬ ∃ x y ww h tok, RecLine (bytes "REC(1,2") x y ww h tok := by
  rintro ⟨x, y, ww, h, tok, hr⟩
  obtain ⟨a, b, c, d, sp, rest, e, _⟩ := hr
  have h1 := congrArg (fun l : List UInt8 => l.count 44) e
  have h2 : (bytes "REC(1,2").count 44 = 1 := by decide +kernel
  simp only [h2, List.count_append, List.count_cons, beq_self_eq_true, if_true] at h1
  omega

theorem ex_lines1 (l : List UInt8) (hne : l ≠ []) (h : 10 ∉ l) : Lines l [l] := .last hne h

/-- C43_rec_incomplete (and with it C43_bad_line) at work. -/
example : Msk.read (exEnv (bytes "REC(1,2")) 7 false (exWorld [] fun _ => {}) = .ub :=
  C43_rec_incomplete _ 7 _ _ _ _ (ex_ready _ _ _) _ (ex_lines1 _ (by decide +kernel) (by decide +kernel)) (bytes "REC(1,2") (bytes "REC(1,2")
    (by simp) ⟨by decide +kernel, .inl (by decide +kernel)⟩ (by decide +kernel)
    (.inl ⟨bytes "1,2", by decide +kernel, .inr ⟨[49], 1, bytes ",2", by decide +kernel,
      ex_int 1 _ ⟨by simp, by simp [IsDig]⟩ (by decide +kernel)⟩⟩) ex_incomplete

/-- C43_rec_overflow at work: the right edge is out of range. -/
example : Msk.read (exEnv (Rect.text ⟨1, 2, 2147483647, 4, "ME"⟩)) 7 false (exWorld [] fun _ => {}) = .ub := by
  have hch := rect_chars ⟨1, 2, 2147483647, 4, "ME"⟩ 23 .me
  have hno : ∀ c : UInt8, c.toNat < 14 → c ∉ Rect.text ⟨1, 2, 2147483647, 4, "ME"⟩ := fun c hc hm => by have := hch c hm; omega
  refine C43_rec_overflow _ 7 _ _ _ _ (ex_ready _ _ _) _ (ex_lines1 _ (fun h => absurd (congrArg List.length h) (by
      have : (bytes "REC(").length = 4 := by decide +kernel
      simp [Rect.text, this])) (hno 10 (by decide))) (Rect.text ⟨1, 2, 2147483647, 4, "ME"⟩) _ (by simp)
    (by rw [strip_id hch]; exact ⟨hno 0 (by decide), .inl rfl⟩) ?_ _ _ _ _ _ (rect_line ⟨1, 2, 2147483647, 4, "ME"⟩ 23 .me) ?_
  · rw [strip_id hch]
    refine ⟨[], [40] ++ decimal 1 ++ bytes "," ++ decimal 2 ++ bytes "," ++ decimal 2147483647 ++ bytes "," ++ decimal 4 ++
      bytes "," ++ bytes "ME" ++ bytes ")", ?_⟩
    have : bytes "REC(" = bytes "REC" ++ [40] := by decide +kernel
    simp only [Rect.text, this, List.append_assoc, List.nil_append]
  · rintro ⟨_, _, _, _, h, _⟩
    revert h
    unfold inI32
    decide

/-- C43_no_geometry at work: a file with its header only. -/
example : Msk.read (exEnv (bytes "VERSION 1")) 7 false (exWorld [] fun _ => {}) = .ub :=
  C43_no_geometry _ 7 _ _ _ _ (ex_ready _ _ _) _ (ex_lines1 _ (by decide +kernel) (by decide +kernel)) [[]]
    (.cons ⟨none, none, .absent (by decide +kernel), .absent (by decide +kernel), fun h => absurd h (by decide +kernel), rfl⟩ .nil)
    rfl rfl

theorem ex_name : MskName (narrow exName) :=
  ⟨bytes "d/", 120, 109, 115, 107, by decide +kernel, by unfold WordChar; decide, .inl rfl, .inl rfl, .inl rfl⟩

/-- C50_get_reader at work, both ways. -/
example : getReader (exEnv (bytes "VERSION 1")) exName = some { fileName := exName } ∧ getReader (exEnv exText) exName = none := by
  have e : narrow exName = lit "d/x.msk" := by decide +kernel
  constructor
  · exact (C50_get_reader _ _ _).mpr ⟨⟨ex_name, bytes "VERSION 1", by simp [exEnv, e], by decide +kernel⟩, rfl⟩
  · cases h : getReader (exEnv exText) exName with
    | none => rfl
    | some r =>
      obtain ⟨⟨_, c, h1, h2⟩, _⟩ := (C50_get_reader _ _ _).mp h
      have : c = exText := by simpa [exEnv, e] using h1.symm
      subst this
      exact absurd h2 (by decide +kernel)

/-- C50_empty_file_blocks at work: after an empty file the reader refuses a good one. -/
example : ∃ r', isMyFormat (exEnv []) exName { fileName := [] } = .ok false r' ∧
    ∃ r'', isMyFormat (exEnv (bytes "VERSION 1")) exName r' = .ok false r'' := by
  have e : narrow exName = lit "d/x.msk" := by decide +kernel
  obtain ⟨r', h1, h2⟩ := C50_empty_file_blocks (exEnv []) exName { fileName := [] } rfl ex_name (by simp [exEnv, e])
  obtain ⟨r'', h3⟩ := h2 [(exEnv (bytes "VERSION 1"), exName)]
  refine ⟨r', h1, r'', ?_⟩
  simp only [List.foldlM_cons, List.foldlM_nil] at h3
  cases h : isMyFormat (exEnv (bytes "VERSION 1")) exName r' with
  | ok b r => rw [M.run_bind_ok h] at h3; exact h3
  | throw e r => rw [M.run_bind_throw h] at h3; cases h3
  | ub => rw [M.run_bind_ub h] at h3; cases h3

/-- C50_element_name at work. -/
example : elemName exName = [120] :=
  C50_element_name [100, 47] [120] [109, 115, 107] (.inr ⟨[100], rfl⟩) (by decide) (by decide) (by decide)

/-- C42_units at work. -/
example : ∃ w' lib, Msk.read (exEnv exText) 7 false (exWorld [] fun _ => {}) = .ok true w' ∧ w'.data.libraries = [some lib] ∧
    lib.units = (.fin (Ieee.rne (1 / 1000)), .fin (Ieee.rne (1 / 1000000000))) :=
  C42_units (exEnv exText) 7 (exWorld [] fun _ => {}) _ _ _ (ex_ready _ _ _) _ ex_lines _ ex_gives (by simp) rfl

end Verif.Props
