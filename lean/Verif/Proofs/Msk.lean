import Verif.Model.MskReader
import Verif.Proofs.Scan

/-! The sections of the MSK reader against the grammar of `Spec/Msk.lean`. -/

namespace Verif.Msk
open Verif Scan Spec.Msk

theorem noDigit_comma (s : List UInt8) : NoDigit (44 :: s) := by
  intro c hc
  simp at hc
  subst hc
  unfold IsDig
  decide

theorem scan_kw (k : List UInt8) (f : List Piece) (u : List UInt8) : scan (k.map .chr ++ f) (k ++ u) = scan f u := by
  induction k with
  | nil => rfl
  | cons c k ih => simp only [List.map_cons, List.cons_append, scan_chr_eq, ih]

/-! ### BB -/

/-- `n` comma-separated `%d` and a tail -/
def ints : Nat → List Piece → List Piece
  | 0, t => t
  | 1, t => .int :: t
  | n + 2, t => .int :: .chr 44 :: ints (n + 1) t

theorem scan_chr_end (c : UInt8) (r : List UInt8) : ∃ e, scan [.chr c] r = .ok ⟨[], e⟩ := by
  cases r with
  | nil => exact ⟨true, scan_chr_nil⟩
  | cons a r =>
    by_cases h : a = c
    · subst h; exact ⟨false, by rw [scan_chr_eq]; rfl⟩
    · exact ⟨false, scan_chr_ne h⟩

theorem comma_step (r : List UInt8) :
    (∃ r', r = 44 :: r') ∨ ((∀ c ∈ r.head?, c ≠ 44) ∧ ∃ e, ∀ f, scan (.chr 44 :: f) r = .ok ⟨[], e⟩) := by
  cases r with
  | nil => exact .inr ⟨by simp, true, fun f => scan_chr_nil⟩
  | cons a r =>
    by_cases h : a = 44
    · subst h; exact .inl ⟨r, rfl⟩
    · exact .inr ⟨by simp [h], false, fun f => scan_chr_ne h⟩

theorem int_step (r : List UInt8) :
    (NoField r ∧ ∃ e, (e = true ↔ Blank r) ∧ ∀ f, scan (.int :: f) r = .ok ⟨[], e⟩) ∨ ∃ a v r', r = a ++ r' ∧ Field a v ∧ NoDigit r' := by
  rcases int_cases r with h | ⟨h, hb⟩ | h
  · exact .inl ⟨noField_of_blank h, true, by simp [h], fun f => scan_int_blank h⟩
  · exact .inl ⟨h, false, by simp [hb], fun f => scan_int_none h hb⟩
  · exact .inr h

theorem scan_reads {n : Nat} {u : List UInt8} {vs : List Int} (h : Reads n u vs) :
    ∃ e, (vs = [] → (e = true ↔ Blank u)) ∧
      ((∀ v ∈ vs, inI32 v) → scan (ints n [.chr 41]) u = .ok ⟨vs.map .int, e⟩) ∧
      (¬ (∀ v ∈ vs, inI32 v) → scan (ints n [.chr 41]) u = .ub) := by
  induction h with
  | @none n s hn =>
    rcases int_step s with ⟨_, e, he, hs⟩ | ⟨a, v, r, rfl, hf, _⟩
    · refine ⟨e, fun _ => he, fun _ => ?_, fun h => absurd (by simp) h⟩
      cases n with
      | zero => exact hs _
      | succ n => exact hs _
    · exact absurd hn (noField_not hf)
  | @last n f v r hf hr hc =>
    have key : ∀ g, (∃ e, scan g r = .ok ⟨[], e⟩) → ∃ e, ([v] = [] → (e = true ↔ Blank (f ++ r))) ∧
        ((∀ w ∈ [v], inI32 w) → scan (.int :: g) (f ++ r) = .ok ⟨[v].map .int, e⟩) ∧
        (¬ (∀ w ∈ [v], inI32 w) → scan (.int :: g) (f ++ r) = .ub) := by
      rintro g ⟨e, he⟩
      refine ⟨e, by simp, fun h => ?_, fun h => ?_⟩
      · rw [scan_field hf hr, if_pos (h v (by simp)), he]; rfl
      · rw [scan_field hf hr, if_neg (by intro h'; apply h; simpa using h')]
    cases n with
    | zero => exact key _ (scan_chr_end _ _)
    | succ n =>
      rcases comma_step r with ⟨r', rfl⟩ | ⟨_, e, he⟩
      · rcases hc with hc | hc
        · omega
        · exact absurd rfl (hc 44 (by simp))
      · exact key _ ⟨e, he _⟩
  | @more n f v s vs hf hs ih =>
    obtain ⟨e, _, h1, h2⟩ := ih
    refine ⟨e, by simp, fun h => ?_, fun h => ?_⟩
    · rw [ints, scan_field hf (noDigit_comma s), if_pos (h v (by simp)), scan_chr_eq,
        h1 fun w hw => h w (List.mem_cons_of_mem _ hw)]
      rfl
    · rw [ints, scan_field hf (noDigit_comma s)]
      by_cases hv : inI32 v
      · rw [if_pos hv, scan_chr_eq, h2]
        · rfl
        · intro h'; apply h
          intro w hw
          rcases List.mem_cons.mp hw with rfl | hw
          · exact hv
          · exact h' w hw
      · rw [if_neg hv]

theorem reads_total : ∀ (n : Nat) (u : List UInt8), ∃ vs, Reads (n + 1) u vs := by
  intro n
  induction n with
  | zero =>
    intro u
    rcases int_step u with ⟨h, _⟩ | ⟨a, v, r, rfl, hf, hr⟩
    · exact ⟨_, .none h⟩
    · exact ⟨_, .last hf hr (.inl rfl)⟩
  | succ n ih =>
    intro u
    rcases int_step u with ⟨h, _⟩ | ⟨a, v, r, rfl, hf, hr⟩
    · exact ⟨_, .none h⟩
    · rcases comma_step r with ⟨r', rfl⟩ | ⟨hc, _⟩
      · obtain ⟨vs, h⟩ := ih r'
        exact ⟨_, .more hf h⟩
      · exact ⟨_, .last hf hr (.inr hc)⟩

theorem reads_len {n : Nat} {u : List UInt8} {vs : List Int} (h : Reads n u vs) : vs.length ≤ n := by
  induction h with
  | none => simp
  | last => simp
  | more _ _ ih => simp; omega

theorem intAt_map (vs : List Int) (e : Bool) (k : Nat) : (⟨vs.map .int, e⟩ : Done).intAt k 0 = vs.getD k 0 := by
  unfold Done.intAt
  rw [List.getElem?_map, List.getD_eq_getElem?_getD]
  cases vs[k]? <;> rfl

theorem bb_num : layerNum (lit "BB") = -5 := by decide +kernel

theorem fillBox_ok {lb rt : Coord} (n : Int) (h1 : inI32 lb.x) (h2 : inI32 lb.y) (h3 : inI32 (rt.x - lb.x))
    (h4 : inI32 (rt.y - lb.y)) : fillBox lb rt n = .ok (boxOf lb.x lb.y rt.x rt.y n) := by
  have e1 : rt.x - (rt.x - lb.x) = lb.x := by omega
  have e2 : rt.y - (rt.y - lb.y) = lb.y := by omega
  unfold fillBox
  simp only [sub32, chk32, if_pos h3, if_pos h4, Res.ok_bind, e1, e2, if_pos h1, if_pos h2]
  simp only [boxOf, pure, Res.ok.injEq]
  obtain ⟨x1, y1⟩ := lb
  obtain ⟨x2, y2⟩ := rt
  simp only [List.foldl_cons, List.foldl_nil, Converter.bboxStep]
  have m1 : ∀ a b : Int, min a b = if b < a then b else a := by intro a b; split <;> omega
  have m2 : ∀ a b : Int, max a b = if a < b then b else a := by intro a b; split <;> omega
  rw [m1, m1, m2, m2]
  rcases lt_trichotomy x1 x2 with hx | hx | hx <;> rcases lt_trichotomy y1 y2 with hy | hy | hy <;>
    simp [hx, hy, not_lt_of_gt]

theorem fillBox_ub {lb rt : Coord} (n : Int) (h : ¬ (inI32 (rt.x - lb.x) ∧ inI32 (rt.y - lb.y))) :
    fillBox lb rt n = .ub := by
  unfold fillBox
  by_cases h3 : inI32 (rt.x - lb.x)
  · have h4 : ¬ inI32 (rt.y - lb.y) := fun h4 => h ⟨h3, h4⟩
    simp only [sub32, chk32, if_pos h3, if_neg h4, Res.ok_bind, Res.ub_bind]
  · simp only [sub32, chk32, if_neg h3, Res.ub_bind]

/-- what an item does to the library and the element being built -/
def addItem (junk : Int) (acc : Acc) (i : Item) : Acc :=
  ⟨if i.isBB then acc.layers ++ [{ layer := i.box.layer, dataType := junk, name := i.name, geometries := [some i.box] }]
    else addToLayer junk i.box.layer i.name i.box acc.layers, acc.geoms ++ [some i.box]⟩

def addItems (junk : Int) (acc : Acc) (is : List Item) : Acc := is.foldl (addItem junk) acc

theorem bb_format : bbFormat = (bytes "BB(").map .chr ++ ints 4 [.chr 41] := by decide +kernel

/-- a readable `BB` section with the numbers `vs` -/
theorem bb_store {env : Env} {l : List UInt8} {acc : Acc} {vs : List Int} {e : Bool}
    (hs : scan bbFormat (cstr l) = .ok ⟨vs.map .int, e⟩) (hz : vs = [] → e = true) (hv : ∀ v ∈ vs, inI32 v) :
    (BBFits vs → readBoundingBox env l acc = .ok (addItem env.junk acc (bbItem vs))) ∧
    (¬ BBFits vs → readBoundingBox env l acc = .ub) := by
  have hz' : (⟨vs.map .int, e⟩ : Done).isZero = false := by
    unfold Done.isZero
    cases vs with
    | nil => simp [hz rfl]
    | cons => simp
  have hget : ∀ k, inI32 (vs.getD k 0) := by
    intro k
    rw [List.getD_eq_getElem?_getD]
    cases hk : vs[k]? with
    | none => simp [inI32]
    | some v => exact hv v (List.mem_of_getElem? hk)
  unfold readBoundingBox
  rw [hs, Res.ok_bind]
  simp only [hz', intAt_map, bb_num]
  constructor
  · intro hf
    rw [fillBox_ok _ (hget 0) (hget 1) hf.2.1 hf.2.2]
    rfl
  · intro hf
    rw [fillBox_ub]
    · rfl
    · rintro ⟨h1, h2⟩
      exact hf ⟨hv, h1, h2⟩

theorem bb_sound {env : Env} {l : List UInt8} {o : Option Item} (acc : Acc) (h : BBGives l o)
    (hc : lit "BB" <:+: l) : readBoundingBox env l acc = .ok (addItems env.junk acc o.toList) := by
  cases h with
  | absent h => exact absurd hc h
  | @unreadable t ht hu =>
    have ht := text_cstr ht
    have : scan bbFormat (cstr l) = .ok ⟨[], false⟩ := by
      rw [ht, bb_format]
      rcases hu with hd | ⟨u, rfl, hn, hb⟩
      · rcases scan_keyword (bytes "BB(") (ints 4 [.chr 41]) t with ⟨_, e⟩ | ⟨hp, _⟩ | ⟨u, rfl, _⟩
        · exact e
        · exact absurd hd (not_differs_prefix hp)
        · exact absurd hd (not_differs_append _ _)
      · rw [scan_kw]; exact scan_int_none hn hb
    unfold readBoundingBox
    rw [this]
    rfl
  | @cut t _ ht hp =>
    have ht := text_cstr ht
    refine (bb_store (vs := []) (e := true) ?_ (fun _ => rfl) (by simp)).1 ⟨by simp, by simp [inI32], by simp [inI32]⟩
    rw [ht, bb_format]
    rcases scan_keyword (bytes "BB(") (ints 4 [.chr 41]) t with ⟨hd, e⟩ | ⟨_, _, e⟩ | ⟨u, rfl, e⟩
    · exact absurd hd (not_differs_prefix hp)
    · exact e
    · have : u = [] := by
        have := hp.length_le
        simpa using this
      subst this
      rw [e]
      exact scan_int_blank (by intro c hc; simp at hc)
  | @read t u vs _ ht hu hr hb hf =>
    have ht := text_cstr ht
    obtain ⟨e, h1, h2, _⟩ := scan_reads hr
    exact (bb_store (vs := vs) (e := e) (by rw [ht, hu, bb_format, scan_kw]; exact h2 hf.1)
      (fun h => (h1 h).mpr (hb h)) hf.1).1 hf

theorem bb_complete {env : Env} {l : List UInt8} {acc : Acc} (hc : lit "BB" <:+: l) :
    readBoundingBox env l acc = .ub ∨ ∃ o, BBGives l o := by
  rcases scan_keyword (bytes "BB(") (ints 4 [.chr 41]) (cstr l) with ⟨hd, _⟩ | ⟨hp, _, _⟩ | ⟨u, hu, e⟩
  · exact .inr ⟨_, .unreadable (cstr_text l) (.inl hd)⟩
  · exact .inr ⟨_, .cut hc (cstr_text l) hp⟩
  · obtain ⟨vs, hr⟩ := reads_total 3 u
    obtain ⟨e', h1, h2, h3⟩ := scan_reads hr
    rw [← bb_format] at e
    by_cases hv : ∀ v ∈ vs, inI32 v
    · by_cases hz : vs = [] → Blank u
      · by_cases hf : BBFits vs
        · exact .inr ⟨_, .read hc (cstr_text l) hu hr hz hf⟩
        · exact .inl ((bb_store (vs := vs) (e := e') (by rw [e]; exact h2 hv) (fun h => (h1 h).mpr (hz h)) hv).2 hf)
      · push Not at hz
        obtain ⟨rfl, hb⟩ := hz
        refine .inr ⟨_, .unreadable (cstr_text l) (.inr ⟨u, hu, ?_, hb⟩)⟩
        cases hr; assumption
    · left
      unfold readBoundingBox
      rw [e, h3 hv]
      rfl

/-! ### REC -/

theorem notSpace_iff (c : UInt8) : (!isSpace c) = true ↔ ¬ Blank [c] := by
  rw [← space_iff]; simp

theorem scan_str {cap : Nat} {f : List Piece} {sp tok rest : List UInt8} (hb : Blank sp) (hne : tok ≠ [])
    (ht : ∀ e ∈ tok, ¬ Blank [e]) (hr : ∀ e ∈ rest.head?, Blank [e]) :
    scan (.str cap :: f) (sp ++ tok ++ rest) =
      if tok.length < cap then scan f rest >>= fun d => .ok ⟨.str tok :: d.vals, d.eof⟩ else .ub := by
  have hdrop : (sp ++ tok ++ rest).dropWhile isSpace = tok ++ rest := by
    rw [List.append_assoc]
    apply dropWhile_skip fun c hc => blank_mem hb hc
    cases tok with
    | nil => exact absurd rfl hne
    | cons c tok =>
      intro d hd
      simp at hd
      subst hd
      have := (notSpace_iff c).mpr (ht c List.mem_cons_self)
      simpa using this
  have h1 : ∀ c ∈ tok, (fun c => !isSpace c) c = true := fun c hc => (notSpace_iff c).mpr (ht c hc)
  have h2 : ∀ c ∈ rest.head?, (fun c => !isSpace c) c = false := by
    intro c hc
    have := (space_iff c).mpr (hr c hc)
    simp [this]
  rw [scan]
  simp only [hdrop]
  rw [if_neg (by simp [hne]), takeWhile_skip h1 h2, dropWhile_skip h1 h2]

theorem str_step (r : List UInt8) :
    (Blank r ∧ ∀ cap f, scan (.str cap :: f) r = .ok ⟨[], true⟩) ∨
    ∃ sp tok rest, r = sp ++ tok ++ rest ∧ Blank sp ∧ tok ≠ [] ∧ (∀ e ∈ tok, ¬ Blank [e]) ∧ ∀ e ∈ rest.head?, Blank [e] := by
  by_cases hb : Blank r
  · left
    refine ⟨hb, fun cap f => ?_⟩
    rw [scan]; simp [dropWhile_blank hb]
  · right
    have hne : r.dropWhile isSpace ≠ [] := fun e => hb (blank_of_dropWhile e)
    refine ⟨r.takeWhile isSpace, (r.dropWhile isSpace).takeWhile (fun c => !isSpace c),
      (r.dropWhile isSpace).dropWhile (fun c => !isSpace c), ?_, ?_, ?_, ?_, ?_⟩
    · rw [List.append_assoc, List.takeWhile_append_dropWhile, List.takeWhile_append_dropWhile]
    · intro c hc
      exact (space_iff c).mp (List.mem_takeWhile_imp hc) c (by simp)
    · cases hx : r.dropWhile isSpace with
      | nil => exact absurd hx hne
      | cons c cs =>
        have := head_dropWhile (p := isSpace) r c (by rw [hx]; simp)
        simp [this]
    · exact fun e he => (notSpace_iff e).mp (List.mem_takeWhile_imp (p := fun c => !isSpace c) he)
    · intro e he
      have := head_dropWhile (p := fun c => !isSpace c) (r.dropWhile isSpace) e he
      exact (space_iff e).mp (by simpa using this)

theorem rec_format : recFormat = (bytes "REC(").map .chr ++
    [.int, .chr 44, .int, .chr 44, .int, .chr 44, .int, .chr 44, .str 8, .chr 41] := by decide +kernel

theorem rec_scan {t : List UInt8} {x y w h : Int} {tok : List UInt8} (hr : RecLine t x y w h tok) :
    ∃ e, scan recFormat t = if inI32 x ∧ inI32 y ∧ inI32 w ∧ inI32 h ∧ tok.length < 8 then
      .ok ⟨[.int x, .int y, .int w, .int h, .str tok], e⟩ else .ub := by
  obtain ⟨a, b, c, d, sp, rest, rfl, ha, hb, hc, hd, hsp, hne, htok, hrest⟩ := hr
  obtain ⟨e, he⟩ := scan_chr_end 41 rest
  refine ⟨e, ?_⟩
  rw [rec_format, scan_kw, scan_field ha (noDigit_comma _), scan_chr_eq, scan_field hb (noDigit_comma _), scan_chr_eq,
    scan_field hc (noDigit_comma _), scan_chr_eq, scan_field hd (noDigit_comma _), scan_chr_eq,
    scan_str hsp hne htok hrest, he]
  by_cases h1 : inI32 x <;> by_cases h2 : inI32 y <;> by_cases h3 : inI32 w <;> by_cases h4 : inI32 h <;>
    by_cases h5 : tok.length < 8 <;> simp [h1, h2, h3, h4, h5]

theorem layerName_total {tok : List UInt8} (hne : tok ≠ []) : ∃ name, LayerName tok name ∧ stripBracket tok = .ok name := by
  unfold stripBracket
  rw [List.getLast?_eq_getLast_of_ne_nil hne]
  by_cases h : tok.getLast hne = 41
  · refine ⟨tok.dropLast, .inl ?_, by simp [h]⟩
    rw [← h, List.dropLast_append_getLast]
  · refine ⟨tok, .inr ⟨rfl, ?_⟩, by simp [h]⟩
    rw [List.getLast?_eq_getLast_of_ne_nil hne]; simpa using h

theorem layerName_det {tok n m : List UInt8} (h1 : LayerName tok n) (h2 : LayerName tok m) : n = m := by
  rcases h1 with h1 | ⟨h1, g1⟩ <;> rcases h2 with h2 | ⟨h2, g2⟩
  · rw [h1] at h2; simpa using h2
  · rw [h1] at g2; simp at g2
  · rw [h2] at g1; simp at g1
  · rw [← h1, ← h2]

instance (x y w h : Int) (tok : List UInt8) : Decidable (RecFits x y w h tok) := by unfold RecFits; infer_instance

theorem rec_parse {l : List UInt8} {x y w h : Int} {tok name : List UInt8} (hr : RecLine (cstr l) x y w h tok)
    (hn : LayerName tok name) :
    parseRecLine l = if RecFits x y w h tok then .ok (some (⟨x, y⟩, ⟨x + w, y + h⟩, name)) else .ub := by
  obtain ⟨e, hs⟩ := rec_scan hr
  have hne : tok ≠ [] := by obtain ⟨_, _, _, _, _, _, _, _, _, _, _, _, hne, _⟩ := hr; exact hne
  obtain ⟨name', hn', e'⟩ := layerName_total hne
  obtain rfl := layerName_det hn hn'
  unfold parseRecLine
  rw [hs]
  by_cases hf : inI32 x ∧ inI32 y ∧ inI32 w ∧ inI32 h ∧ tok.length < 8
  · rw [if_pos hf, Res.ok_bind]
    have hz : (⟨[.int x, .int y, .int w, .int h, .str tok], e⟩ : Done).isZero = false := by simp [Done.isZero]
    simp only [hz]
    have i0 : (⟨[.int x, .int y, .int w, .int h, .str tok], e⟩ : Done).intAt 0 0 = x := rfl
    have i1 : (⟨[.int x, .int y, .int w, .int h, .str tok], e⟩ : Done).intAt 1 0 = y := rfl
    have i2 : (⟨[.int x, .int y, .int w, .int h, .str tok], e⟩ : Done).intAt 2 0 = w := rfl
    have i3 : (⟨[.int x, .int y, .int w, .int h, .str tok], e⟩ : Done).intAt 3 0 = h := rfl
    have i4 : (⟨[.int x, .int y, .int w, .int h, .str tok], e⟩ : Done).strAt 4 = tok := rfl
    simp only [i0, i1, i2, i3, i4, e', Res.ok_bind, add32, chk32]
    by_cases h1 : inI32 (x + w) <;> by_cases h2 : inI32 (y + h) <;> simp [RecFits, hf, h1, h2]
  · rw [if_neg hf, if_neg (by unfold RecFits; tauto)]
    rfl

theorem rec_skip {l : List UInt8} (hu : Unreadable (bytes "REC(") (cstr l)) : parseRecLine l = .ok none := by
  have : scan recFormat (cstr l) = .ok ⟨[], false⟩ := by
    rw [rec_format]
    rcases hu with hd | ⟨u, hu, hn, hb⟩
    · rcases scan_keyword (bytes "REC(") [.int, .chr 44, .int, .chr 44, .int, .chr 44, .int, .chr 44, .str 8, .chr 41] (cstr l)
        with ⟨_, e⟩ | ⟨hp, _⟩ | ⟨u, hu, _⟩
      · exact e
      · exact absurd hd (not_differs_prefix hp)
      · rw [hu] at hd; exact absurd hd (not_differs_append _ _)
    · rw [hu, scan_kw]; exact scan_int_none hn hb
  unfold parseRecLine
  rw [this]
  rfl

/-- a rectangle line is unreadable, complete, or undefined -/
theorem rec_cases (l : List UInt8) :
    Unreadable (bytes "REC(") (cstr l) ∨ (∃ x y w h tok, RecLine (cstr l) x y w h tok) ∨ parseRecLine l = .ub := by
  -- a scan that stored only integers ends in line 189
  have bad : ∀ (vs : List Int) (e : Bool), vs.length ≤ 4 → (vs = [] → e = true) →
      scan recFormat (cstr l) = .ok ⟨vs.map .int, e⟩ → parseRecLine l = .ub := by
    intro vs e hl hz hs
    have hz' : (⟨vs.map .int, e⟩ : Done).isZero = false := by
      unfold Done.isZero
      cases vs with
      | nil => simp [hz rfl]
      | cons => simp
    have hstr : (⟨vs.map .int, e⟩ : Done).strAt 4 = [] := by
      unfold Done.strAt
      rw [List.getElem?_eq_none (by simpa using hl)]
    unfold parseRecLine
    rw [hs, Res.ok_bind]
    simp only [hz', hstr]
    rfl
  have badub : scan recFormat (cstr l) = .ub → parseRecLine l = .ub := by
    intro hs
    unfold parseRecLine
    rw [hs]
    rfl
  rcases scan_keyword (bytes "REC(") [.int, .chr 44, .int, .chr 44, .int, .chr 44, .int, .chr 44, .str 8, .chr 41] (cstr l)
    with ⟨hd, _⟩ | ⟨_, _, e⟩ | ⟨u, hu, e⟩
  · exact .inl (.inl hd)
  · rw [← rec_format] at e
    exact .inr (.inr (bad [] true (by simp) (by simp) e))
  rw [← rec_format] at e
  rcases int_step u with ⟨hn, e0, hb, hs⟩ | ⟨a, x, r, rfl, ha, hra⟩
  · cases e0 with
    | false => exact .inl (.inr ⟨u, hu, hn, by rw [← hb]; simp⟩)
    | true => exact .inr (.inr (bad [] true (by simp) (by simp) (by rw [e, hs]; rfl)))
  rw [scan_field ha hra] at e
  by_cases hx : inI32 x
  swap
  · rw [if_neg hx] at e; exact .inr (.inr (badub e))
  rw [if_pos hx] at e
  rcases comma_step r with ⟨r, rfl⟩ | ⟨_, e0, hs⟩
  swap
  · exact .inr (.inr (bad [x] e0 (by simp) (by simp) (by rw [e, hs]; rfl)))
  rw [scan_chr_eq] at e
  rcases int_step r with ⟨hn, e0, hb, hs⟩ | ⟨b, y, r, rfl, hb, hrb⟩
  · exact .inr (.inr (bad [x] e0 (by simp) (by simp) (by rw [e, hs]; rfl)))
  rw [scan_field hb hrb] at e
  by_cases hy : inI32 y
  swap
  · rw [if_neg hy] at e; exact .inr (.inr (badub e))
  rw [if_pos hy] at e
  rcases comma_step r with ⟨r, rfl⟩ | ⟨_, e0, hs⟩
  swap
  · exact .inr (.inr (bad [x, y] e0 (by simp) (by simp) (by rw [e, hs]; rfl)))
  rw [scan_chr_eq] at e
  rcases int_step r with ⟨hn, e0, _, hs⟩ | ⟨c, w, r, rfl, hc, hrc⟩
  · exact .inr (.inr (bad [x, y] e0 (by simp) (by simp) (by rw [e, hs]; rfl)))
  rw [scan_field hc hrc] at e
  by_cases hw : inI32 w
  swap
  · rw [if_neg hw] at e; exact .inr (.inr (badub e))
  rw [if_pos hw] at e
  rcases comma_step r with ⟨r, rfl⟩ | ⟨_, e0, hs⟩
  swap
  · exact .inr (.inr (bad [x, y, w] e0 (by simp) (by simp) (by rw [e, hs]; rfl)))
  rw [scan_chr_eq] at e
  rcases int_step r with ⟨hn, e0, _, hs⟩ | ⟨d, h, r, rfl, hd, hrd⟩
  · exact .inr (.inr (bad [x, y, w] e0 (by simp) (by simp) (by rw [e, hs]; rfl)))
  rw [scan_field hd hrd] at e
  by_cases hh : inI32 h
  swap
  · rw [if_neg hh] at e; exact .inr (.inr (badub e))
  rw [if_pos hh] at e
  rcases comma_step r with ⟨r, rfl⟩ | ⟨_, e0, hs⟩
  swap
  · exact .inr (.inr (bad [x, y, w, h] e0 (by simp) (by simp) (by rw [e, hs]; rfl)))
  rw [scan_chr_eq] at e
  rcases str_step r with ⟨_, hs⟩ | ⟨sp, tok, rest, rfl, h1, h2, h3, h4⟩
  · exact .inr (.inr (bad [x, y, w, h] true (by simp) (by simp) (by rw [e, hs]; rfl)))
  exact .inr (.inl ⟨x, y, w, h, tok, a, b, c, d, sp, rest, hu, ha, hb, hc, hd, h1, h2, h3, h4⟩)

theorem layerNum_known {s : String} {n : Int} (h : LayerOf s n) : layerNum (bytes s) = n ∧ n ≠ undefinedLayerNum := by
  cases h <;> decide +kernel

theorem layerNum_unknown {name : List UInt8} (h : ¬ ∃ s n, LayerOf s n ∧ name = bytes s) :
    layerNum name = undefinedLayerNum := by
  unfold layerNum
  cases hl : layerMap.lookup name with
  | none => rfl
  | some n =>
    exfalso
    apply h
    unfold layerMap at hl
    simp only [List.lookup_cons, List.lookup_nil] at hl
    have hit : ∀ s n' (_ : LayerOf s n'), (name == lit s) = true → ∃ s n, LayerOf s n ∧ name = bytes s := by
      intro s n' hs he
      exact ⟨s, n', hs, eq_of_beq he⟩
    repeat' split at hl
    · exact hit _ _ .title ‹_›
    · exact hit _ _ .bb ‹_›
    · exact hit _ _ .vi ‹_›
    · exact hit _ _ .nw ‹_›
    · exact hit _ _ .dn ‹_›
    · exact hit _ _ .dp ‹_›
    · exact hit _ _ .po ‹_›
    · exact hit _ _ .co ‹_›
    · exact hit _ _ .me ‹_›
    · exact hit _ _ .m2 ‹_›
    · exact hit _ _ .m3 ‹_›
    · exact hit _ _ .m4 ‹_›
    · exact hit _ _ .m5 ‹_›
    · exact hit _ _ .m6 ‹_›
    · cases hl

theorem rec_sound {env : Env} {l : List UInt8} {o : Option Item} (acc : Acc) (h : RecGives l o)
    (hc : lit "REC" <:+: l) : readRectangle env l acc = .ok (addItems env.junk acc o.toList) := by
  unfold readRectangle
  cases h with
  | absent h => exact absurd hc h
  | @unreadable t ht hu =>
    rw [← text_cstr ht] at hu
    rw [rec_skip hu]
    rfl
  | unknown ht hr hf hn hk =>
    rw [← text_cstr ht] at hr
    rw [rec_parse hr hn, if_pos hf, Res.ok_bind]
    simp only [layerNum_unknown hk, if_true]
    rfl
  | known _ ht hr hf hn hk he =>
    rw [← text_cstr ht] at hr
    obtain ⟨h1, h2⟩ := layerNum_known hk
    rw [rec_parse hr hn, if_pos hf, Res.ok_bind]
    subst he
    obtain ⟨i1, i2, i3, i4, i5, i6, i7⟩ := hf
    simp only [h1, if_neg h2]
    rw [fillBox_ok _ i1 i2 (by simpa using i3) (by simpa using i4)]
    rfl

theorem rec_complete {env : Env} {l : List UInt8} {acc : Acc} (hc : lit "REC" <:+: l) :
    readRectangle env l acc = .ub ∨ ∃ o, RecGives l o := by
  rcases rec_cases l with hu | ⟨x, y, w, h, tok, hr⟩ | hub
  · exact .inr ⟨_, .unreadable (cstr_text l) hu⟩
  · have hne : tok ≠ [] := by obtain ⟨_, _, _, _, _, _, _, _, _, _, _, _, hne, _⟩ := hr; exact hne
    obtain ⟨name, hn, _⟩ := layerName_total hne
    by_cases hf : RecFits x y w h tok
    · right
      by_cases hk : ∃ s n, LayerOf s n ∧ name = bytes s
      · obtain ⟨s, n, hk, he⟩ := hk
        exact ⟨_, .known hc (cstr_text l) hr hf hn hk he⟩
      · exact ⟨_, .unknown (cstr_text l) hr hf hn hk⟩
    · left
      unfold readRectangle
      rw [rec_parse hr hn, if_neg hf]
      rfl
  · left
    unfold readRectangle
    rw [hub]
    rfl

/-! ### TITLE -/

theorem title_format : titleFormat = (bytes "TITLE").map .chr ++ [.ws, .int, .ws, .int, .ws, .chr 35, .str 64] := by
  decide +kernel

theorem dropWhile_twice (u : List UInt8) : (u.dropWhile isSpace).dropWhile isSpace = u.dropWhile isSpace := by
  have := dropWhile_skip (p := isSpace) (sp := []) (r := u.dropWhile isSpace) (by simp) (head_dropWhile u)
  simpa using this

theorem scan_ws_int (f : List Piece) (u : List UInt8) : scan (.ws :: .int :: f) u = scan (.int :: f) u := by
  conv_lhs => rw [scan]
  rw [scan, scan, dropWhile_twice]

theorem takeWhile_long {tok r : List UInt8} (ht : ∀ e ∈ tok, ¬ Blank [e]) :
    tok.length ≤ ((tok ++ r).takeWhile fun c => !isSpace c).length := by
  induction tok with
  | nil => simp
  | cons c tok ih =>
    have := (notSpace_iff c).mpr (ht c List.mem_cons_self)
    simp only [List.cons_append, List.takeWhile_cons, this, if_true, List.length_cons]
    have := ih fun e he => ht e (List.mem_cons_of_mem _ he)
    omega

theorem title_sound {t : List UInt8} (h : TitleOverflow t) : scan titleFormat t = .ub := by
  rw [title_format]
  cases h with
  | first e ha hr hv => rw [e, scan_kw, scan_ws_int, scan_field ha hr, if_neg hv]
  | @second a v b w r e ha hv hb hw hr hw' =>
    have hbr : NoDigit (b ++ r) := by
      obtain ⟨sp, t', rfl, _, hi⟩ := hw
      obtain ⟨c, t'', rfl, _⟩ := isInt_ne hi
      intro d hd
      apply hb d
      cases sp <;> simpa using hd
    rw [e, scan_kw, scan_ws_int, scan_field ha hbr, if_pos hv, scan_ws_int, scan_field hw hr, if_neg hw']
    rfl
  | @text a v b w sp sp' tok r e ha hv hb hw hw' hsp hsp' ht hl =>
    have hbr : ∀ x, NoDigit (b ++ x) := by
      intro x
      obtain ⟨sp, t', rfl, _, hi⟩ := hw
      obtain ⟨c, t'', rfl, _⟩ := isInt_ne hi
      intro d hd
      apply hb d
      cases sp <;> simpa using hd
    have hsr : NoDigit (sp ++ 35 :: (sp' ++ (tok ++ r))) := by
      cases sp with
      | nil => intro c hc; simp at hc; subst hc; unfold IsDig; decide
      | cons c sp =>
        intro d hd
        simp at hd
        subst hd
        have := hsp c List.mem_cons_self
        unfold IsDig
        omega
    have hd1 : (sp ++ 35 :: (sp' ++ (tok ++ r))).dropWhile isSpace = 35 :: (sp' ++ (tok ++ r)) :=
      dropWhile_skip (fun c hc => blank_mem hsp hc) (by simp; decide)
    have hne : tok ≠ [] := by rintro rfl; simp at hl
    have hd2 : (sp' ++ (tok ++ r)).dropWhile isSpace = tok ++ r := by
      apply dropWhile_skip (fun c hc => blank_mem hsp' hc)
      cases tok with
      | nil => exact absurd rfl hne
      | cons c tok =>
        intro d hd
        simp at hd
        subst hd
        have := (notSpace_iff c).mpr (ht c List.mem_cons_self)
        simpa using this
    have hstr : scan [.str 64] (sp' ++ (tok ++ r)) = .ub := by
      rw [scan]
      simp only [hd2]
      rw [if_neg (by simp [hne]), if_neg]
      have := takeWhile_long (r := r) ht
      omega
    have hws : scan [.ws, .chr 35, .str 64] (sp ++ 35 :: (sp' ++ (tok ++ r))) = .ub := by
      rw [scan, hd1, scan_chr_eq, hstr]
    rw [e, scan_kw, scan_ws_int, scan_field ha (hbr _), if_pos hv, scan_ws_int, scan_field hw hsr, if_pos hw', hws]
    rfl

theorem title_complete (t : List UInt8) : (∃ d, scan titleFormat t = .ok d) ∨ TitleOverflow t := by
  rw [title_format]
  rcases scan_keyword (bytes "TITLE") [.ws, .int, .ws, .int, .ws, .chr 35, .str 64] t with ⟨_, e⟩ | ⟨_, _, e⟩ | ⟨u, hu, e⟩
  · exact .inl ⟨_, e⟩
  · exact .inl ⟨_, e⟩
  rw [scan_ws_int] at e
  rcases int_step u with ⟨_, e0, _, hs⟩ | ⟨a, v, r, rfl, ha, hra⟩
  · exact .inl ⟨_, by rw [e, hs]⟩
  by_cases hv : inI32 v
  swap
  · exact .inr (.first hu ha hra hv)
  rw [scan_field ha hra, if_pos hv, scan_ws_int] at e
  rcases int_step r with ⟨_, e0, _, hs⟩ | ⟨b, w, r, rfl, hb, hrb⟩
  · exact .inl ⟨_, by rw [e, hs]; rfl⟩
  have hnb : NoDigit b := by
    obtain ⟨sp, t', rfl, _, hi⟩ := hb
    obtain ⟨c, t'', rfl, _⟩ := isInt_ne hi
    intro d hd
    apply hra d
    cases sp <;> simpa using hd
  by_cases hw : inI32 w
  swap
  · exact .inr (.second hu ha hv hnb hb hrb hw)
  rw [scan_field hb hrb, if_pos hw] at e
  have hws : scan [.ws, .chr 35, .str 64] r = scan [.chr 35, .str 64] (r.dropWhile isSpace) := by rw [scan]
  rw [hws] at e
  have hr : r = r.takeWhile isSpace ++ r.dropWhile isSpace := List.takeWhile_append_dropWhile.symm
  have hsp : ∀ x : List UInt8, Blank (x.takeWhile isSpace) := by
    intro x c hc
    exact (space_iff c).mp (List.mem_takeWhile_imp hc) c (by simp)
  cases hx : r.dropWhile isSpace with
  | nil => rw [hx, scan_chr_nil] at e; exact .inl ⟨_, e⟩
  | cons c q =>
    rw [hx] at e
    by_cases hc : c = 35
    swap
    · rw [scan_chr_ne hc] at e; exact .inl ⟨_, e⟩
    subst hc
    rw [scan_chr_eq, scan] at e
    dsimp only at e
    split at e
    · exact .inl ⟨_, e⟩
    · split at e
      · exact .inl ⟨_, e⟩
      · rename_i hlen
        right
        have hq : q = q.takeWhile isSpace ++ q.dropWhile isSpace := List.takeWhile_append_dropWhile.symm
        have hy : q.dropWhile isSpace = ((q.dropWhile isSpace).takeWhile fun c => !isSpace c) ++
            (q.dropWhile isSpace).dropWhile fun c => !isSpace c := List.takeWhile_append_dropWhile.symm
        generalize hT : ((q.dropWhile isSpace).takeWhile fun c => !isSpace c) = T at hlen hy
        refine .text (sp := r.takeWhile isSpace) (sp' := q.takeWhile isSpace) (tok := T.take 64)
          (r := T.drop 64 ++ (q.dropWhile isSpace).dropWhile fun c => !isSpace c) ?_ ha hv hnb hb hw (hsp _) (hsp _) ?_ ?_
        · rw [hu]
          congr 3
          rw [← List.append_assoc (T.take 64), List.take_append_drop, ← hy, ← hq, ← hx, ← hr]
        · intro e he
          rw [← hT] at he
          exact (notSpace_iff e).mp (List.mem_takeWhile_imp (p := fun c => !isSpace c) (List.mem_of_mem_take he))
        · rw [List.length_take]; omega

/-! ### a line -/

theorem strip_eq (l : List UInt8) (h : 10 ∉ l) : (l.filter (· ≠ 13)).filter (· ≠ 10) = strip l := by
  unfold strip
  apply List.filter_eq_self.mpr
  intro c hc
  have := (List.mem_filter.mp hc).1
  simp only [decide_eq_true_eq]
  rintro rfl
  exact h this

theorem line_sound {env : Env} {l : List UInt8} {is : List Item} (acc : Acc) (hl : 10 ∉ l) (h : LineGives l is) :
    readLine env l acc = .ok (addItems env.junk acc is) := by
  obtain ⟨o1, o2, h1, h2, h3, rfl⟩ := h
  unfold readLine
  simp only [strip_eq l hl]
  have s1 : (if lit "BB" <:+: strip l then readBoundingBox env (strip l) acc else .ok acc) =
      .ok (addItems env.junk acc o1.toList) := by
    split
    · rename_i hc; exact bb_sound acc h1 hc
    · rename_i hc
      cases h1 with
      | absent => rfl
      | unreadable => rfl
      | cut h => exact absurd h hc
      | read h => exact absurd h hc
  have s2 : ∀ acc, (if lit "REC" <:+: strip l then readRectangle env (strip l) acc else .ok acc) =
      .ok (addItems env.junk acc o2.toList) := by
    intro acc
    split
    · rename_i hc; exact rec_sound acc h2 hc
    · rename_i hc
      cases h2 with
      | absent => rfl
      | unreadable => rfl
      | unknown => rfl
      | known h => exact absurd h hc
  rw [s1, Res.ok_bind, s2, Res.ok_bind]
  have : addItems env.junk acc (o1.toList ++ o2.toList) = addItems env.junk (addItems env.junk acc o1.toList) o2.toList :=
    List.foldl_append
  rw [this]
  split
  · rename_i hc
    unfold readTitle
    rcases title_complete (cstr (strip l)) with ⟨d, e⟩ | hb
    · rw [e]; rfl
    · exact absurd hb (h3 hc _ (cstr_text _))
  · rfl

theorem line_complete (env : Env) (l : List UInt8) (acc : Acc) (hl : 10 ∉ l) :
    readLine env l acc = .ub ∨ ∃ is, LineGives l is := by
  unfold readLine
  simp only [strip_eq l hl]
  have s1 : (if lit "BB" <:+: strip l then readBoundingBox env (strip l) acc else .ok acc) = .ub ∨ ∃ o, BBGives (strip l) o := by
    split
    · rename_i hc; exact bb_complete hc
    · rename_i hc; exact .inr ⟨_, .absent hc⟩
  have s2 : ∀ acc, (if lit "REC" <:+: strip l then readRectangle env (strip l) acc else .ok acc) = .ub ∨
      ∃ o, RecGives (strip l) o := by
    intro acc
    split
    · rename_i hc; exact rec_complete hc
    · rename_i hc; exact .inr ⟨_, .absent hc⟩
  rcases s1 with e | ⟨o1, h1⟩
  · rw [e]; exact .inl rfl
  have e1 : ∃ acc1, (if lit "BB" <:+: strip l then readBoundingBox env (strip l) acc else .ok acc) = .ok acc1 := by
    split
    · rename_i hc; exact ⟨_, bb_sound acc h1 hc⟩
    · exact ⟨_, rfl⟩
  obtain ⟨acc1, e1⟩ := e1
  rw [e1, Res.ok_bind]
  rcases s2 acc1 with e | ⟨o2, h2⟩
  · rw [e]; exact .inl rfl
  have e2 : ∃ acc2, (if lit "REC" <:+: strip l then readRectangle env (strip l) acc1 else .ok acc1) = .ok acc2 := by
    split
    · rename_i hc; exact ⟨_, rec_sound acc1 h2 hc⟩
    · exact ⟨_, rfl⟩
  obtain ⟨acc2, e2⟩ := e2
  rw [e2, Res.ok_bind]
  by_cases hc : lit "TITLE" <:+: strip l
  · rw [if_pos hc]
    rcases title_complete (cstr (strip l)) with ⟨d, e⟩ | hb
    · refine .inr ⟨_, o1, o2, h1, h2, ?_, rfl⟩
      intro _ t ht hb
      rw [← text_cstr ht] at hb
      rw [title_sound hb] at e
      cases e
    · left
      unfold readTitle
      rw [title_sound hb]
      rfl
  · exact .inr ⟨_, o1, o2, h1, h2, fun h => absurd h hc, rfl⟩

/-! ### files -/

theorem fileLines_cons (l : List UInt8) (h : 10 ∉ l) (s : List UInt8) : fileLines (l ++ 10 :: s) = l :: fileLines s := by
  induction l with
  | nil => simp [fileLines]
  | cons c l ih =>
    have hc : c ≠ 10 := fun e => h (by simp [e])
    rw [List.cons_append, fileLines, if_neg hc, ih fun h' => h (List.mem_cons_of_mem _ h')]

theorem fileLines_last (l : List UInt8) (hne : l ≠ []) (h : 10 ∉ l) : fileLines l = [l] := by
  induction l with
  | nil => exact absurd rfl hne
  | cons c l ih =>
    have hc : c ≠ 10 := fun e => h (by simp [e])
    rw [fileLines, if_neg hc]
    cases l with
    | nil => simp [fileLines]
    | cons d l => rw [ih (by simp) fun h' => h (List.mem_cons_of_mem _ h')]

theorem lines_eq {s : List UInt8} {ls : List (List UInt8)} (h : Lines s ls) : fileLines s = ls := by
  induction h with
  | nil => rfl
  | last hne h => exact fileLines_last _ hne h
  | cons h _ ih => rw [fileLines_cons _ h, ih]

theorem lines_total (s : List UInt8) : Lines s (fileLines s) := by
  have key : ∀ n (s : List UInt8), s.length ≤ n → Lines s (fileLines s) := by
    intro n
    induction n with
    | zero => intro s hs; have : s = [] := by simpa using hs
              subst this; exact .nil
    | succ n ih =>
      intro s hs
      by_cases h : 10 ∈ s
      · obtain ⟨l, r, e, hl⟩ := List.eq_append_cons_of_mem h
        subst e
        rw [fileLines_cons l hl]
        exact .cons hl (ih r (by simp at hs; omega))
      · by_cases hne : s = []
        · subst hne; exact .nil
        · rw [fileLines_last s hne h]; exact .last hne h
  exact key _ s (Nat.le_refl _)

theorem lines_nolf {s : List UInt8} {ls : List (List UInt8)} (h : Lines s ls) : ∀ l ∈ ls, 10 ∉ l := by
  induction h with
  | nil => simp
  | last _ h => simpa using h
  | cons h _ ih => simp [h]; exact ih

theorem readLines_sound {env : Env} {ls : List (List UInt8)} {iss : List (List Item)} (h : List.Forall₂ LineGives ls iss)
    (hl : ∀ l ∈ ls, 10 ∉ l) (acc : Acc) : readLines env ls acc = .ok (addItems env.junk acc iss.flatten) := by
  induction h generalizing acc with
  | nil => rfl
  | @cons l is ls iss h _ ih =>
    rw [readLines, line_sound acc (hl l List.mem_cons_self) h, Res.ok_bind,
      ih (fun l' h' => hl l' (List.mem_cons_of_mem _ h'))]
    unfold addItems
    rw [List.flatten_cons, List.foldl_append]

theorem readLines_ub {env : Env} {ls : List (List UInt8)} (hl : ∀ l ∈ ls, 10 ∉ l) (h : ∃ l ∈ ls, ¬ ∃ is, LineGives l is)
    (acc : Acc) : readLines env ls acc = .ub := by
  induction ls generalizing acc with
  | nil => simp at h
  | cons l ls ih =>
    rw [readLines]
    rcases line_complete env l acc (hl l List.mem_cons_self) with e | ⟨is, hg⟩
    · rw [e]; rfl
    · rw [line_sound acc (hl l List.mem_cons_self) hg, Res.ok_bind]
      apply ih fun l' h' => hl l' (List.mem_cons_of_mem _ h')
      obtain ⟨l', hm, hn⟩ := h
      rcases List.mem_cons.mp hm with rfl | hm
      · exact absurd ⟨is, hg⟩ hn
      · exact ⟨l', hm, hn⟩

theorem items_total {ls : List (List UInt8)} (h : ∀ l ∈ ls, ∃ is, LineGives l is) : ∃ iss, List.Forall₂ LineGives ls iss := by
  induction ls with
  | nil => exact ⟨[], .nil⟩
  | cons l ls ih =>
    obtain ⟨is, h1⟩ := h l List.mem_cons_self
    obtain ⟨iss, h2⟩ := ih fun l' h' => h l' (List.mem_cons_of_mem _ h')
    exact ⟨is :: iss, .cons h1 h2⟩

end Verif.Msk
