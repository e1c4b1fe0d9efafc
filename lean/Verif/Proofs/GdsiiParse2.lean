import Verif.Proofs.GdsiiParse

/-! Parsing whole GDSII files: figures, structures, the library. -/

namespace Verif.Gds
open Verif Spec.Gdsii Ieee

/-! ### bounding boxes -/

theorem boxes_eq (mn mx c d : Coord) :
    (let mn : Coord := if mn.x > c.x then ⟨c.x, mn.y⟩ else mn
     let mn : Coord := if mn.y > c.y then ⟨mn.x, c.y⟩ else mn
     let mx : Coord := if mx.x < d.x then ⟨d.x, mx.y⟩ else mx
     let mx : Coord := if mx.y < d.y then ⟨mx.x, d.y⟩ else mx
     (mn, mx)) = ((⟨min mn.x c.x, min mn.y c.y⟩, ⟨max mx.x d.x, max mx.y d.y⟩) : Coord × Coord) := by
  obtain ⟨a, b⟩ := mn
  obtain ⟨a', b'⟩ := mx
  obtain ⟨x, y⟩ := c
  obtain ⟨x', y'⟩ := d
  dsimp only
  refine Prod.ext ?_ ?_
  · dsimp only
    by_cases h1 : a > x <;> by_cases h2 : b > y <;> simp only [h1, h2, if_true, if_false, Coord.mk.injEq] <;> omega
  · dsimp only
    by_cases h1 : a' < x' <;> by_cases h2 : b' < y' <;> simp only [h1, h2, if_true, if_false, Coord.mk.injEq] <;> omega

theorem bboxStep_eq (mm : Coord × Coord) (c : Coord) : Converter.bboxStep mm c =
    (⟨min mm.1.x c.x, min mm.1.y c.y⟩, ⟨max mm.2.x c.x, max mm.2.y c.y⟩) := by
  unfold Converter.bboxStep
  exact boxes_eq ..

theorem joinBox_eq (mm : Coord × Coord) (g : Geometry) : Msk.joinBox mm (some g) =
    .ok (⟨min mm.1.x g.min.x, min mm.1.y g.min.y⟩, ⟨max mm.2.x g.max.x, max mm.2.y g.max.y⟩) := by
  unfold Msk.joinBox
  exact congrArg Res.ok (boxes_eq ..)

theorem foldl_bbox (cs : List Coord) (a b : Coord) : cs.foldl Converter.bboxStep (a, b) =
    (⟨cs.foldl (fun m d => min m d.x) a.x, cs.foldl (fun m d => min m d.y) a.y⟩,
     ⟨cs.foldl (fun m d => max m d.x) b.x, cs.foldl (fun m d => max m d.y) b.y⟩) := by
  induction cs generalizing a b with
  | nil => rfl
  | cons c cs ih =>
    rw [List.foldl_cons, bboxStep_eq, ih]
    rfl

theorem foldlM_join (gs : List Geometry) (a b : Coord) : (gs.map some).foldlM Msk.joinBox (a, b) = .ok
    (⟨(gs.map Geometry.min).foldl (fun m d => min m d.x) a.x, (gs.map Geometry.min).foldl (fun m d => min m d.y) a.y⟩,
     ⟨(gs.map Geometry.max).foldl (fun m d => max m d.x) b.x, (gs.map Geometry.max).foldl (fun m d => max m d.y) b.y⟩) := by
  induction gs generalizing a b with
  | nil => rfl
  | cons c cs ih =>
    rw [List.map_cons, List.foldlM_cons, joinBox_eq, Res.ok_bind, ih]
    rfl

theorem geomBox_eq (g : Geometry) (h1 : g.min = ⟨-1, -1⟩) (h2 : g.max = ⟨-1, -1⟩) :
    geomBox g = { g with min := lowest g.coords, max := highest g.coords } := by
  unfold geomBox
  obtain ⟨t, la, co, mi, ma, _⟩ := g
  dsimp only at h1 h2
  subst h1 h2
  cases co with
  | nil => rfl
  | cons c cs =>
    dsimp only
    rw [foldl_bbox]
    rfl

theorem elemBox_eq (e : Element) (gs : List Geometry) (hg : e.geometries = gs.map some) (h1 : e.min = ⟨-1, -1⟩) (h2 : e.max = ⟨-1, -1⟩) :
    elemBox e = .ok { e with min := lowest (gs.map Geometry.min), max := highest (gs.map Geometry.max) } := by
  unfold elemBox
  obtain ⟨n, ge, f, mi, ma, ne⟩ := e
  dsimp only at h1 h2 hg
  subst h1 h2 hg
  cases gs with
  | nil => rfl
  | cons c cs =>
    show ((cs.map some).foldlM Msk.joinBox (c.min, c.max) >>= _) = _
    rw [foldlM_join, Res.ok_bind]
    rfl

/-! ### states of the parser -/

/-- what is known outside structures -/
structure Ctx where
  libs : List (Option Library)
  lib : Library
  heap : Elements
  next : Nat

/-- inside the library -/
def inL (c : Ctx) : PS :=
  { file := ⟨[], false⟩, libs := c.libs ++ [some c.lib], heap := c.heap, next := c.next, lib := some c.libs.length }

/-- inside the structure `e` -/
def inE (c : Ctx) (e : Element) : PS :=
  { file := ⟨[], false⟩, libs := c.libs ++ [some c.lib], heap := fun b => if b = c.next then e else c.heap b, next := c.next + 1,
    lib := some c.libs.length, elem := some c.next }

/-- inside the figure `g` of the structure `e` -/
def inG (c : Ctx) (e : Element) (g : Geometry) : PS :=
  { inE c { e with geometries := e.geometries ++ [some g] } with geom := true }

theorem modify_last {α : Type} (l : List (Option α)) (x : α) (f : α → α) :
    (l ++ [some x]).modify l.length (Option.map f) = l ++ [some (f x)] := by
  induction l with
  | nil => rfl
  | cons a l ih => rw [List.cons_append, List.length_cons, List.modify_succ_cons, ih]; rfl

theorem inL_onLib (c : Ctx) (s : Strm) (f : Library → Library) :
    { inL c with file := s }.onLib f = { inL { c with lib := f c.lib } with file := s } := by
  unfold PS.onLib inL
  dsimp only
  rw [modify_last]

theorem inE_onElem (c : Ctx) (e : Element) (s : Strm) (f : Element → Element) :
    { inE c e with file := s }.onElem f = { inE c (f e) with file := s } := by
  unfold PS.onElem inE
  dsimp only
  congr 1
  funext b
  split <;> rename_i h
  · rw [if_pos rfl]
  · rfl

theorem inG_onGeom (c : Ctx) (e : Element) (g : Geometry) (s : Strm) (f : Geometry → Geometry) :
    { inG c e g with file := s }.onGeom f = { inG c e (f g) with file := s } := by
  unfold PS.onGeom PS.onElem inG inE
  dsimp only
  congr 1
  funext b
  split <;> rename_i h
  · rw [if_pos rfl]
    dsimp only
    congr 1
    rw [List.length_append, List.length_singleton, Nat.add_sub_cancel, modify_last]
  · rfl

theorem inG_theGeom (c : Ctx) (e : Element) (g : Geometry) (s : Strm) : { inG c e g with file := s }.theGeom = g := by
  unfold PS.theGeom inG inE
  dsimp only
  rw [if_pos rfl]
  simp

theorem inL_inLib (c : Ctx) (s : Strm) : { inL c with file := s }.inLib = true := rfl

theorem inE_inElem (c : Ctx) (e : Element) (s : Strm) : { inE c e with file := s }.inElem = true := rfl

theorem inG_inGeom (c : Ctx) (e : Element) (g : Geometry) (s : Strm) : { inG c e g with file := s }.inGeom = true := rfl

/-! ### records inside a figure -/

variable {env : Env} (c : Ctx) (e : Element) (g : Geometry)

theorem parses_layer (v : Int) (h : Fits16 v) : Parses env (record 0x0D 2 (be16 v)) (inG c e g) (inG c e { g with layer := v }) := by
  refine Parses.record (by rw [be16_length]; omega) fun rest => ?_
  show secLayer _ = _
  unfold secLayer
  rw [if_pos (inG_inGeom ..)]
  dsimp only
  rw [readWord_be16 _ v h]
  exact congrArg Res.ok (inG_onGeom ..)

theorem parses_dataType (v : Int) (h : Fits16 v) (hg : g.type = GType.polygon ∨ g.type = GType.path) :
    Parses env (record 0x0E 2 (be16 v)) (inG c e g) (inG c e { g with dataType := v }) := by
  refine Parses.record (by rw [be16_length]; omega) fun rest => ?_
  show secDataType _ = _
  unfold secDataType
  rw [if_pos (inG_inGeom ..)]
  dsimp only
  rw [readWord_be16 _ v h]
  refine congrArg Res.ok ((inG_onGeom ..).trans ?_)
  rw [if_pos hg]

theorem parses_width (v : Int) (h : Fits32 v) (hg : g.type = GType.path ∨ g.type = GType.text) :
    Parses env (record 0x0F 3 (be32 v)) (inG c e g) (inG c e { g with width := v }) := by
  refine Parses.record (by rw [be32_length]; omega) fun rest => ?_
  show secWidth _ = _
  unfold secWidth
  rw [if_pos (inG_inGeom ..)]
  dsimp only
  rw [readDword_be32 _ v h, Res.ok_bind]
  refine congrArg Res.ok ((inG_onGeom ..).trans ?_)
  rw [if_pos hg]

theorem parses_pathType (v : Int) (h : Fits16 v) (hg : g.type = GType.path ∨ g.type = GType.text) :
    Parses env (record 0x21 2 (be16 v)) (inG c e g) (inG c e { g with pathType := v }) := by
  refine Parses.record (by rw [be16_length]; omega) fun rest => ?_
  show secPathType _ = _
  unfold secPathType
  rw [if_pos (inG_inGeom ..)]
  dsimp only
  rw [readWordNew_be16 v h, Res.ok_bind]
  refine congrArg Res.ok ((inG_onGeom ..).trans ?_)
  rw [if_pos hg]

theorem parses_strans (v : Int) (h : Fits16 v) :
    Parses env (record 0x1A 1 (be16 v)) (inG c e g)
      (inG c e (if g.type = GType.text then { g with flagsTransformation := v } else g)) := by
  refine Parses.record (by rw [be16_length]; omega) fun rest => ?_
  show secStrans _ = _
  unfold secStrans
  rw [if_pos (inG_inGeom ..)]
  dsimp only
  rw [readWordNew_be16 v h, Res.ok_bind]
  exact congrArg Res.ok (inG_onGeom ..)

theorem textGuard (s : Strm) (t : GType) (hg : g.type = t) :
    ({ inG c e g with file := s }.inGeom && decide ({ inG c e g with file := s }.theGeom.type = t)) = true := by
  rw [inG_theGeom, inG_inGeom, hg]; simp

theorem parses_textType (v : Int) (h : Fits16 v) (hg : g.type = GType.text) :
    Parses env (record 0x16 2 (be16 v)) (inG c e g) (inG c e { g with textType := v }) := by
  refine Parses.record (by rw [be16_length]; omega) fun rest => ?_
  show secTextType _ = _
  unfold secTextType
  rw [if_pos (textGuard c e g _ _ hg)]
  dsimp only
  rw [readWordNew_be16 v h, Res.ok_bind]
  exact congrArg Res.ok (inG_onGeom ..)

theorem parses_presentation (v : Int) (h : Fits16 v) (hg : g.type = GType.text) :
    Parses env (record 0x17 1 (be16 v)) (inG c e g) (inG c e { g with flagsPresentation := v }) := by
  refine Parses.record (by rw [be16_length]; omega) fun rest => ?_
  show secPresentation _ = _
  unfold secPresentation
  rw [if_pos (textGuard c e g _ _ hg)]
  dsimp only
  rw [readWordNew_be16 v h, Res.ok_bind]
  exact congrArg Res.ok (inG_onGeom ..)

theorem parses_boxType (v : Int) (h : Fits16 v) (hg : g.type = GType.rectangle) :
    Parses env (record 0x2E 2 (be16 v)) (inG c e g) (inG c e { g with rectType := v }) := by
  refine Parses.record (by rw [be16_length]; omega) fun rest => ?_
  show secBoxType _ = _
  unfold secBoxType
  rw [if_pos (textGuard c e g _ _ hg)]
  dsimp only
  rw [readWord_be16 _ v h]
  exact congrArg Res.ok (inG_onGeom ..)

theorem parses_string (s : List UInt8) (h : FitsS s) (hg : g.type = GType.text) :
    Parses env (record 0x19 6 (padded s)) (inG c e g) (inG c e { g with stringValue := s }) := by
  refine Parses.record (padded_length s h) fun rest => ?_
  show secString _ _ = _
  unfold secString
  rw [if_pos (textGuard c e g _ _ hg)]
  dsimp only
  rw [readString_padded s h]
  exact congrArg Res.ok (inG_onGeom ..)

theorem parses_sname (s : List UInt8) (h : FitsS s) (hg : g.type = GType.reference) :
    Parses env (record 0x12 6 (padded s)) (inG c e g) (inG c e { g with refName := s }) := by
  refine Parses.record (padded_length s h) fun rest => ?_
  show secSname _ _ = _
  unfold secSname
  rw [if_pos (textGuard c e g _ _ hg)]
  dsimp only
  rw [readString_padded s h]
  exact congrArg Res.ok (inG_onGeom ..)

theorem normalizeDouble_real (hr : env.rnd = rne) (r : Real8) (h : FitsR r) : normalizeDouble env.rnd (realBytes r) = .ok (value8 r) := by
  obtain ⟨b0, t⟩ := r
  unfold FitsR at h
  dsimp only at h
  match t, h with
  | [b1, b2, b3, b4, b5, b6, b7], _ => rw [hr]; exact normalizeDouble_eq ..

theorem realBytes_length (r : Real8) (h : FitsR r) : (realBytes r).length = 8 := by
  unfold realBytes FitsR at *; rw [List.length_cons, h]

theorem parses_mag (hr : env.rnd = rne) (r : Real8) (h : FitsR r) (hg : g.type = GType.reference ∨ g.type = GType.text) :
    Parses env (record 0x1B 5 (realBytes r)) (inG c e g) (inG c e { g with magnification := value8 r }) := by
  refine Parses.record (by rw [realBytes_length r h]; omega) fun rest => ?_
  show secMag _ _ = _
  unfold secMag
  rw [if_pos (inG_inGeom ..)]
  dsimp only
  have := rd_exact id (List.replicate 8 0) (realBytes r) rest
  rw [realBytes_length r h] at this
  rw [this]
  dsimp only
  rw [List.map_id, normalizeDouble_real hr r h, Res.ok_bind]
  refine congrArg Res.ok ((inG_onGeom ..).trans ?_)
  rw [if_pos hg]

theorem coords_length (xy : List Coord) : (xy.flatMap coordBytes).length = 8 * xy.length := by
  induction xy with
  | nil => rfl
  | cons c cs ih =>
    rw [List.flatMap_cons, List.length_append, ih, List.length_cons]
    show 8 + _ = _
    omega

theorem parses_xy (xy : List Coord) (hl : xy.length ≤ 8191) (h : ∀ c ∈ xy, FitsC c)
    (hg : g.type = GType.polygon ∨ g.type = GType.path ∨ g.type = GType.rectangle) (h1 : g.min = ⟨-1, -1⟩) (h2 : g.max = ⟨-1, -1⟩) :
    Parses env (record 0x10 3 (xy.flatMap coordBytes)) (inG c e g)
      (inG c e { g with coords := xy, min := lowest xy, max := highest xy }) := by
  refine Parses.record (by rw [coords_length]; omega) fun rest => ?_
  show secXy _ _ = _
  unfold secXy
  rw [if_pos (inG_inGeom ..), inG_theGeom]
  have key : (readCoords ((xy.flatMap coordBytes).length / 8) ⟨0, 0⟩ ⟨xy.flatMap coordBytes ++ rest, false⟩ >>= fun x =>
      (pure ({ inG c e g with file := x.2 }.onGeom fun (g : Geometry) => geomBox { g with coords := x.1 }) : Res PS)) =
      .ok { inG c e { g with coords := xy, min := lowest xy, max := highest xy } with file := ⟨rest, false⟩ } := by
    rw [coords_length, Nat.mul_div_cancel_left _ (by decide), readCoords_bytes xy h, Res.ok_bind]
    exact congrArg Res.ok ((inG_onGeom ..).trans
      (congrArg (fun x => { inG c e x with file := ⟨rest, false⟩ }) (geomBox_eq { g with coords := xy } h1 h2)))
  split <;> first | exact key | (rename_i h; rw [h] at hg; simp at hg)

theorem parses_pos (pos : Coord) (h : FitsC pos) (hg : g.type = GType.text ∨ g.type = GType.reference) (hc : g.coords = [])
    (h1 : g.min = ⟨-1, -1⟩) (h2 : g.max = ⟨-1, -1⟩) :
    Parses env (record 0x10 3 (coordBytes pos)) (inG c e g) (inG c e { g with coords := [pos], min := pos, max := pos }) := by
  have hl : (coordBytes pos).length = 8 := rfl
  refine Parses.record (by rw [hl]; omega) fun rest => ?_
  show secXy _ _ = _
  unfold secXy
  rw [if_pos (inG_inGeom ..), inG_theGeom]
  have key : (readCoord ⟨0, 0⟩ ⟨coordBytes pos ++ rest, false⟩ >>= fun x =>
      (pure ({ inG c e g with file := x.2 }.onGeom fun (g : Geometry) => geomBox { g with coords := g.coords ++ [x.1] }) : Res PS)) =
      .ok { inG c e { g with coords := [pos], min := pos, max := pos } with file := ⟨rest, false⟩ } := by
    rw [readCoord_bytes _ pos h, Res.ok_bind]
    refine congrArg Res.ok ((inG_onGeom ..).trans ?_)
    rw [hc]
    exact congrArg (fun x => { inG c e x with file := ⟨rest, false⟩ }) (geomBox_eq { g with coords := [pos] } h1 h2)
  split <;> first | exact key | (rename_i h; rw [h] at hg; simp at hg)

theorem parses_propAttr (v : Int) (h : Fits16 v) (hp : g.properties = []) :
    Parses env (record 0x2B 2 (be16 v)) (inG c e g) (inG c e { g with properties := [(v, [])] }) := by
  refine Parses.record (by rw [be16_length]; omega) fun rest => ?_
  show secPropAttr _ = _
  unfold secPropAttr
  rw [if_pos (inG_inGeom ..), inG_theGeom, hp]
  dsimp only [List.getLast?]
  rw [readWord_be16 _ v h]
  refine congrArg Res.ok ((inG_onGeom ..).trans ?_)
  rw [hp]
  rfl

theorem parses_endEl : Parses env (record 0x11 0 []) (inG c e g) (inE c { e with geometries := e.geometries ++ [some g] }) := by
  refine Parses.record (by simp) fun rest => ?_
  show secEndEl _ = _
  unfold secEndEl
  rw [if_pos (inG_inGeom ..)]
  rfl

/-! ### figures -/

/-- the geometry a figure starts with -/
def start : Figure → Geometry
  | .boundary .. => { type := .polygon }
  | .path .. => { type := .path }
  | .box .. => { type := .rectangle }
  | .text .. => { type := .text }
  | .sref .. => { type := .reference }

/-- a reference makes the structure not flat -/
def opened (f : Figure) (e : Element) : Element := { e with isFlat := e.isFlat && !f.isSref }

theorem newGeom_ok (t : GType) (s : Strm) :
    secNewGeom t { inE c e with file := s } = .ok { inG c e { type := t } with file := s } := by
  unfold secNewGeom
  rw [if_pos (inE_inElem ..), inE_onElem]
  rfl

theorem parses_opening (f : Figure) : Parses env f.opening (inE c e) (inG c (opened f e) (start f)) := by
  have ho : f.isSref = false → opened f e = e := by
    intro h
    unfold opened
    rw [h]
    simp
  cases f with
  | boundary =>
    rw [ho rfl]
    exact Parses.record (by simp) fun rest => newGeom_ok c e .polygon _
  | path =>
    rw [ho rfl]
    exact Parses.record (by simp) fun rest => newGeom_ok c e .path _
  | box =>
    rw [ho rfl]
    exact Parses.record (by simp) fun rest => newGeom_ok c e .rectangle _
  | text =>
    rw [ho rfl]
    exact Parses.record (by simp) fun rest => newGeom_ok c e .text _
  | sref name flags mag pos =>
    refine Parses.record (by simp) fun rest => ?_
    show secSref _ = _
    unfold secSref
    rw [if_pos (inE_inElem ..), inE_onElem]
    have hf : opened (Figure.sref name flags mag pos) e = { e with isFlat := false } := by
      unfold opened Figure.isSref
      simp
    rw [hf]
    rfl

theorem parses_body (hr : env.rnd = rne) (f : Figure) (h : f.Fits) : Parses env f.body (inG c e (start f)) (inG c e f.geometry) := by
  cases f with
  | boundary layer dataType xy =>
    obtain ⟨h1, h2, h3, h4⟩ := h
    exact ((parses_layer c e _ layer h1).append (parses_dataType c e _ dataType h2 (.inl rfl))).append
      (parses_xy c e _ xy h3 h4 (.inl rfl) rfl rfl)
  | path layer dataType pathType width xy =>
    obtain ⟨h1, h2, h3, h4, h5, h6⟩ := h
    let g2 : Geometry := { type := .path, layer := layer, dataType := dataType }
    let g3 (o : Option Int) : Geometry := { g2 with pathType := o.getD 0 }
    let g4 (o : Option Int) : Geometry := { g3 pathType with width := o.getD 0 }
    have s2 : Parses env (optRecord 0x21 2 (pathType.map be16)) (inG c e g2) (inG c e (g3 pathType)) :=
      Parses.opt (q := fun o => inG c e (g3 o)) rfl fun v hv => parses_pathType c e _ v (h3 v hv) (.inl rfl)
    have s3 : Parses env (optRecord 0x0F 3 (width.map be32)) (inG c e (g3 pathType)) (inG c e (g4 width)) :=
      Parses.opt (q := fun o => inG c e (g4 o)) rfl fun v hv => parses_width c e _ v (h4 v hv) (.inl rfl)
    have s1 := (parses_layer (env := env) c e { type := .path } layer h1).append
      (parses_dataType c e _ dataType h2 (.inr rfl))
    exact ((s1.append s2).append s3).append (parses_xy c e _ xy h5 h6 (.inr (.inl rfl)) rfl rfl)
  | box layer boxType xy =>
    obtain ⟨h1, h2, h3, h4⟩ := h
    exact ((parses_layer c e _ layer h1).append (parses_boxType c e _ boxType h2 rfl)).append
      (parses_xy c e _ xy h3 h4 (.inr (.inr rfl)) rfl rfl)
  | text layer textType presentation pathType width flags mag pos string =>
    obtain ⟨h1, h2, h3, h4, h5, h6, h7, h8, h9⟩ := h
    let g2 : Geometry := { type := .text, layer := layer, textType := textType }
    let g3 (o : Option Int) : Geometry := { g2 with flagsPresentation := o.getD 0 }
    let g4 (o : Option Int) : Geometry := { g3 presentation with pathType := o.getD 0 }
    let g5 (o : Option Int) : Geometry := { g4 pathType with width := o.getD 0 }
    let g6 (o : Option Int) : Geometry := { g5 width with flagsTransformation := o.getD 0 }
    let g7 (o : Option Real8) : Geometry := { g6 flags with magnification := (o.map value8).getD (.fin 1) }
    have s1 := (parses_layer (env := env) c e { type := .text } layer h1).append (parses_textType c e _ textType h2 rfl)
    have s2 : Parses env (optRecord 0x17 1 (presentation.map be16)) (inG c e g2) (inG c e (g3 presentation)) :=
      Parses.opt (q := fun o => inG c e (g3 o)) rfl fun v hv => parses_presentation c e _ v (h3 v hv) rfl
    have s3 : Parses env (optRecord 0x21 2 (pathType.map be16)) (inG c e (g3 presentation)) (inG c e (g4 pathType)) :=
      Parses.opt (q := fun o => inG c e (g4 o)) rfl fun v hv => parses_pathType c e _ v (h4 v hv) (.inr rfl)
    have s4 : Parses env (optRecord 0x0F 3 (width.map be32)) (inG c e (g4 pathType)) (inG c e (g5 width)) :=
      Parses.opt (q := fun o => inG c e (g5 o)) rfl fun v hv => parses_width c e _ v (h5 v hv) (.inr rfl)
    have s5 : Parses env (optRecord 0x1A 1 (flags.map be16)) (inG c e (g5 width)) (inG c e (g6 flags)) :=
      Parses.opt (q := fun o => inG c e (g6 o)) rfl fun v hv => parses_strans c e _ v (h6 v hv)
    have s6 : Parses env (optRecord 0x1B 5 (mag.map realBytes)) (inG c e (g6 flags)) (inG c e (g7 mag)) :=
      Parses.opt (q := fun o => inG c e (g7 o)) rfl fun v hv => parses_mag c e _ hr v (h7 v hv) (.inr rfl)
    exact ((((((s1.append s2).append s3).append s4).append s5).append s6).append
      (parses_pos c e _ pos h8 (.inl rfl) rfl rfl rfl)).append (parses_string c e _ string h9 rfl)
  | sref name flags mag pos =>
    obtain ⟨h1, h2, h3, h4⟩ := h
    let g1 : Geometry := { type := .reference, refName := name }
    let g2 (o : Option Real8) : Geometry := { g1 with magnification := (o.map value8).getD (.fin 1) }
    have s1 : Parses env (record 0x12 6 (padded name)) (inG c e { type := .reference }) (inG c e g1) := parses_sname c e _ name h1 rfl
    have s2 : Parses env (optRecord 0x1A 1 (flags.map be16)) (inG c e g1) (inG c e g1) :=
      Parses.opt (q := fun _ => inG c e g1) rfl fun v hv => parses_strans c e _ v (h2 v hv)
    have s3 : Parses env (optRecord 0x1B 5 (mag.map realBytes)) (inG c e g1) (inG c e (g2 mag)) :=
      Parses.opt (q := fun o => inG c e (g2 o)) rfl fun v hv => parses_mag c e _ hr v (h3 v hv) (.inl rfl)
    exact ((s1.append s2).append s3).append (parses_pos c e _ pos h4 (.inr rfl) rfl rfl rfl)

theorem parses_item (hr : env.rnd = rne) (i : Item) (h : i.Fits) :
    Parses env i.bytes (inE c e) (inE c { opened i.figure e with geometries := e.geometries ++ [some i.geometry] }) := by
  obtain ⟨h1, h2, h3⟩ := h
  unfold Item.bytes
  have s1 := ((parses_opening c e i.figure).append (Parses.others env _ h2 _)).append (parses_body c _ hr i.figure h1)
  have hp : i.figure.geometry.properties = [] := by cases i.figure <;> rfl
  refine Parses.append (Parses.append s1 ?_) (parses_endEl c (opened i.figure e) i.geometry)
  unfold Item.geometry
  cases hq : i.property with
  | none =>
    have hi : i.figure.geometry = { i.figure.geometry with properties := [] } := by rw [← hp]
    exact hi ▸ Parses.nil _ _
  | some p =>
    obtain ⟨k, v⟩ := p
    obtain ⟨h4, h5⟩ := h3 _ hq
    refine Parses.append (parses_propAttr c _ _ k h4 hp) ?_
    refine Parses.record (padded_length v h5) fun rest => ?_
    rw [dispatch_other env _ _ _ (by decide)]
    unfold seek
    simp

theorem parses_items (hr : env.rnd = rne) (is : List Item) (h : ∀ i ∈ is, i.Fits) :
    Parses env (is.flatMap Item.bytes) (inE c e) (inE c
      { e with
        geometries := e.geometries ++ is.map fun i => some i.geometry
        isFlat := e.isFlat && !is.any fun i => i.figure.isSref }) := by
  induction is generalizing e with
  | nil => simpa using Parses.nil env (inE c e)
  | cons i is ih =>
    rw [List.flatMap_cons]
    have := (parses_item c e hr i (h i (by simp))).append (ih _ fun x hx => h x (List.mem_cons_of_mem _ hx))
    simp only [opened] at this
    simpa [Bool.and_assoc] using this

/-! ### structures -/

theorem readDates_ok (ds : List UInt8) (hd : ds.length = 24) (rest : List UInt8) :
    readDates ⟨ds ++ rest, false⟩ = .ok ⟨rest, false⟩ := by
  unfold readDates
  rw [if_neg (by simp; omega)]
  dsimp only
  rw [← hd, List.drop_left]

theorem parses_bgnStr (ds : List UInt8) (hd : ds.length = 24) : Parses env (record 0x05 2 ds) (inL c) (inE c {}) := by
  refine Parses.record (by omega) fun rest => ?_
  show secBgnStr _ = _
  unfold secBgnStr
  rw [if_pos (inL_inLib ..)]
  dsimp only
  rw [readDates_ok ds hd, Res.ok_bind]
  rfl

theorem parses_strName (s : List UInt8) (h : FitsS s) : Parses env (record 0x06 6 (padded s)) (inE c e) (inE c { e with name := s }) := by
  refine Parses.record (padded_length s h) fun rest => ?_
  show secStrName _ _ = _
  unfold secStrName
  rw [if_pos (inE_inElem ..)]
  dsimp only
  rw [readString_padded s h]
  exact congrArg Res.ok (inE_onElem ..)

theorem parses_endStr (gs : List Geometry) (hg : e.geometries = gs.map some) (h1 : e.min = ⟨-1, -1⟩) (h2 : e.max = ⟨-1, -1⟩) :
    Parses env (record 0x07 0 []) (inE c e) (inL ⟨c.libs, { c.lib with elements := c.lib.elements ++ [some c.next] },
      fun b => if b = c.next then { e with min := lowest (gs.map Geometry.min), max := highest (gs.map Geometry.max) } else c.heap b,
      c.next + 1⟩) := by
  refine Parses.record (by simp) fun rest => ?_
  show secEndStr _ = _
  unfold secEndStr
  rw [if_pos (inE_inElem ..)]
  have he : { inE c e with file := ⟨[] ++ rest, false⟩ }.heap c.next = e := if_pos rfl
  show (elemBox ({ inE c e with file := ⟨[] ++ rest, false⟩ }.heap c.next) >>= _) = _
  rw [he, elemBox_eq e gs hg h1 h2, Res.ok_bind, inE_onElem]
  refine congrArg Res.ok ?_
  unfold PS.onLib inE inL
  dsimp only
  rw [modify_last]
  simp

theorem parses_structure (hr : env.rnd = rne) (s : Structure) (h : s.Fits) :
    Parses env s.bytes (inL c) (inL ⟨c.libs, { c.lib with elements := c.lib.elements ++ [some c.next] },
      fun b => if b = c.next then s.element else c.heap b, c.next + 1⟩) := by
  obtain ⟨h1, h2, h3⟩ := h
  unfold Structure.bytes
  refine Parses.append (Parses.append (Parses.append (parses_bgnStr c _ h1) (parses_strName c _ _ h2)) (parses_items c _ hr _ h3)) ?_
  let e : Element :=
    { name := s.name
      geometries := s.items.map fun i => some i.geometry
      isFlat := !s.items.any fun i => i.figure.isSref }
  have := parses_endStr (env := env) c e (s.items.map Item.geometry) (by simp [e]) rfl rfl
  simp only [List.map_map] at this
  exact this

theorem storeFrom_cons (heap : Elements) (next : Nat) (x : Element) (es : List Element) :
    storeFrom heap next (x :: es) = storeFrom (fun b => if b = next then x else heap b) (next + 1) es := by
  funext a
  unfold storeFrom
  by_cases h1 : a < next
  · rw [if_pos h1, if_pos (by omega)]
    exact (if_neg (by omega)).symm
  · rw [if_neg h1]
    by_cases h2 : a = next
    · subst h2
      rw [if_pos (by omega)]
      simp
    · rw [if_neg (by omega)]
      dsimp only
      rw [if_neg h2]
      have : a - next = (a - (next + 1)) + 1 := by omega
      rw [this, List.getElem?_cons_succ]

theorem storeFrom_nil (heap : Elements) (next : Nat) : storeFrom heap next [] = heap := by
  funext a
  unfold storeFrom
  simp

theorem parses_structures (hr : env.rnd = rne) (ss : List Structure) (h : ∀ s ∈ ss, s.Fits) :
    Parses env (ss.flatMap Structure.bytes) (inL c)
      (inL ⟨c.libs, { c.lib with elements := c.lib.elements ++ (List.range' c.next ss.length).map some },
        storeFrom c.heap c.next (ss.map Structure.element), c.next + ss.length⟩) := by
  induction ss generalizing c with
  | nil =>
    simp only [List.flatMap_nil, List.length_nil, List.range'_zero, List.map_nil, List.append_nil, storeFrom_nil, Nat.add_zero]
    exact Parses.nil env (inL c)
  | cons s ss ih =>
    rw [List.flatMap_cons]
    have := (parses_structure c hr s (h s (by simp))).append (ih _ fun x hx => h x (List.mem_cons_of_mem _ hx))
    dsimp only at this
    rw [List.map_cons, storeFrom_cons, List.length_cons, List.range'_succ]
    simpa [Nat.add_assoc, Nat.add_comm 1] using this

/-! ### the library -/

/-- outside a library -/
def outL (libs : List (Option Library)) (heap : Elements) (next : Nat) : PS :=
  { file := ⟨[], false⟩, libs := libs, heap := heap, next := next }

theorem parses_header (p : PS) (v : Int) (h : Fits16 v) : Parses env (record 0x00 2 (be16 v)) p p := by
  refine Parses.record (by rw [be16_length]; omega) fun rest => ?_
  show secHeader _ = _
  unfold secHeader
  dsimp only
  rw [readWord_be16 0 v h]

theorem parses_bgnLib (libs : List (Option Library)) (heap : Elements) (next : Nat) (ds : List UInt8) (hd : ds.length = 24) :
    Parses env (record 0x01 2 ds) (outL libs heap next) (inL ⟨libs, {}, heap, next⟩) := by
  refine Parses.record (by omega) fun rest => ?_
  show secBgnLib _ = _
  unfold secBgnLib
  rw [if_neg (by simp [outL])]
  dsimp only
  rw [readDates_ok ds hd, Res.ok_bind]
  rfl

theorem parses_libName (s : List UInt8) (h : FitsS s) :
    Parses env (record 0x02 6 (padded s)) (inL c) (inL { c with lib := { c.lib with name := s } }) := by
  refine Parses.record (padded_length s h) fun rest => ?_
  show secLibName _ _ = _
  unfold secLibName
  rw [if_pos (inL_inLib ..)]
  dsimp only
  rw [readString_padded s h]
  exact congrArg Res.ok (inL_onLib ..)

theorem parses_units (hr : env.rnd = rne) (u v : Real8) (hu : FitsR u) (hv : FitsR v) :
    Parses env (record 0x03 5 (realBytes u ++ realBytes v)) (inL c)
      (inL { c with lib := { c.lib with units := (value8 u, value8 v) } }) := by
  have hl : (realBytes u ++ realBytes v).length = 16 := by rw [List.length_append, realBytes_length u hu, realBytes_length v hv]
  refine Parses.record (by omega) fun rest => ?_
  show secUnits _ _ = _
  unfold secUnits
  rw [if_pos (inL_inLib ..)]
  have hi : { inL c with file := ⟨realBytes u ++ realBytes v ++ rest, false⟩ }.libs[c.libs.length]? = some (some c.lib) := by
    unfold inL
    simp
  have hs : { inL c with file := ⟨realBytes u ++ realBytes v ++ rest, false⟩ }.lib = some c.libs.length := rfl
  rw [hs]
  dsimp only
  rw [hi]
  dsimp only
  have := rd_exact id (env.mem c.lib.units.1 ++ env.mem c.lib.units.2) (realBytes u ++ realBytes v) rest
  rw [hl] at this
  rw [this]
  dsimp only
  rw [List.map_id, ← realBytes_length u hu, List.take_left, List.drop_left, normalizeDouble_real hr u hu, Res.ok_bind,
    normalizeDouble_real hr v hv, Res.ok_bind]
  exact congrArg Res.ok (inL_onLib ..)

theorem parses_endLib : Parses env (record 0x04 0 []) (inL c) (outL (c.libs ++ [some c.lib]) c.heap c.next) :=
  Parses.record (by simp) fun _ => rfl

theorem parses_design (hr : env.rnd = rne) (d : Design) (h : d.Fits) (libs : List (Option Library)) (heap : Elements) (next : Nat) :
    Parses env d.bytes (outL libs heap next)
      (outL (libs ++ [some (d.library next)]) (storeFrom heap next (d.structures.map Structure.element)) (next + d.structures.length)) := by
  obtain ⟨h1, h2, h3, h4, h5, h6, h7⟩ := h
  unfold Design.bytes
  exact Parses.append (Parses.append (Parses.append (Parses.append (Parses.append (Parses.append (parses_header _ _ h1)
    (parses_bgnLib _ _ _ _ h2)) (parses_libName _ _ h3)) (Parses.others env _ h4 _)) (parses_units _ hr _ _ h5 h6))
    (parses_structures _ hr _ h7)) (parses_endLib _)

/-! ### what follows the library -/

theorem zeros_end (env : Env) (k fuel : Nat) (hf : k < fuel) (libs : List (Option Library)) (heap : Elements) (next : Nat) :
    ∃ p, readRecords env fuel { outL libs heap next with file := ⟨List.replicate k 0, false⟩ } = .ok p ∧ p.libs = libs ∧ p.heap = heap := by
  induction k using Nat.strongRecOn generalizing fuel with
  | _ k ih =>
    cases fuel with
    | zero => omega
    | succ fuel =>
      unfold readRecords
      rw [if_neg (by simp)]
      by_cases hk : k < 4
      · have : k = 0 ∨ k = 1 ∨ k = 2 ∨ k = 3 := by omega
        rcases this with rfl | rfl | rfl | rfl <;> exact ⟨_, rfl, rfl, rfl⟩
      · obtain ⟨m, rfl⟩ : ∃ m, k = m + 4 := ⟨k - 4, by omega⟩
        have e : List.replicate (m + 4) (0 : UInt8) = 0 :: 0 :: 0 :: 0 :: List.replicate m 0 := rfl
        dsimp only
        rw [e]
        dsimp only
        have hd : ∀ r : Rec, r.recordType = 0 → dispatch env r { outL libs heap next with file := ⟨List.replicate m 0, false⟩ } =
            .ok { outL libs heap next with file := (readWord 0 ⟨List.replicate m 0, false⟩).2 } := by
          intro r h
          unfold dispatch
          rw [h]
          rfl
        rw [hd _ rfl, Res.ok_bind]
        unfold readWord rd
        dsimp only
        rw [if_neg (by simp), List.length_replicate]
        by_cases hm : m < 2
        · rw [if_pos hm]
          dsimp only
          cases fuel with
          | zero => exact ⟨_, rfl, rfl, rfl⟩
          | succ fuel =>
            unfold readRecords
            rw [if_pos rfl]
            exact ⟨_, rfl, rfl, rfl⟩
        · rw [if_neg hm]
          dsimp only
          rw [List.drop_replicate]
          exact ih (m - 2) (by omega) fuel (by omega)

end Verif.Gds
