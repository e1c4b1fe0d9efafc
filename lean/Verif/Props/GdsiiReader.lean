import Verif.Proofs.GdsiiPost

/-!
C46, C47, C51 and C52: the GDSII reader object.
-/

namespace Verif.Props
open Verif Spec.Gdsii

/-! ### C46 -/

/-- **C46** Whatever was done with a reader object before, whatever files exist, and whatever layout is passed (also
none), `Read` returns false and changes neither the layout nor the reader. -/
theorem C46_read_fails (env : Gds.Env) (r : Gds.Reader) (hr : Reachable env r) (next : Nat) (null : Bool) (data : LayoutData)
    (heap : Elements) : Gds.read env next null ⟨r, data, heap⟩ = .ok false ⟨r, data, heap⟩ := by
  have hd : r.hasData = false := by
    induction hr with
    | fresh => rfl
    | @isMyFormat r r' name b _ h ih =>
      have : ∀ s : Gds.Reader, s.hasData = false → ∀ b s', Gds.isMyFormat env name s = .ok b s' → s'.hasData = false := by
        intro s hs b s' h
        unfold Gds.isMyFormat at h
        dsimp only at h
        split at h
        · cases h; exact hs
        · split at h
          · cases h; exact hs
          · split at h
            · split at h
              · cases h; exact hs
              · cases h
            · cases h; exact hs
            · cases h
      exact this r ih b r' h
    | @read r next null data heap b r' data' heap' _ h ih =>
      unfold Gds.read at h
      dsimp only at h
      rw [ih] at h
      simp only [Bool.not_false, if_true] at h
      injection h with _ h
      injection h with h
      rw [← h]; exact ih
  unfold Gds.read
  dsimp only
  rw [hd]
  rfl

/-! ### C51 -/

/-- **C51** `IsMyFormat` answers true exactly for names ending in `.gds` or `.gdsii` (lower case) of existing files
that begin with a HEADER and a BGNLIB record; it is undefined exactly when such a file ends within its first three
bytes (or after `?? ?? 00`), and answers false otherwise.  In every case that returns the name has been stored. -/
theorem C51_is_my_format (env : Gds.Env) (r : Gds.Reader) (name : List Nat) (hl : name.length < 2 ^ 64) :
    Gds.isMyFormat env name r = .ok true { r with fileName := name } ∧ GdsName name ∧
        (∃ c, env.fs (Msk.narrow name) = some c ∧ GdsHead c) ∨
    Gds.isMyFormat env name r = .ub ∧ GdsName name ∧ (∃ c, env.fs (Msk.narrow name) = some c ∧ Torn c) ∨
    Gds.isMyFormat env name r = .ok false { r with fileName := name } ∧
        ¬(GdsName name ∧ ∃ c, env.fs (Msk.narrow name) = some c ∧ (GdsHead c ∨ Torn c)) := by
  have hn : GdsName name ↔ ¬(Gds.extension name ≠ [103, 100, 115] ∧ Gds.extension name ≠ [103, 100, 115, 105, 105]) := by
    have h1 := Gds.extension_iff name [103, 100, 115] (by norm_num at hl; exact hl) (by decide)
    have h2 := Gds.extension_iff name [103, 100, 115, 105, 105] (by norm_num at hl; exact hl) (by decide)
    rw [Classical.not_and_iff_not_or_not, not_not, not_not, h1, h2]
    constructor
    · rintro ⟨ext, rfl | rfl, h⟩
      · exact .inl h
      · exact .inr h
    · rintro (h | h)
      · exact ⟨_, .inl rfl, h⟩
      · exact ⟨_, .inr rfl, h⟩
  unfold Gds.isMyFormat
  dsimp only
  by_cases hx : Gds.extension name ≠ [103, 100, 115] ∧ Gds.extension name ≠ [103, 100, 115, 105, 105]
  · rw [if_pos hx]
    exact .inr (.inr ⟨rfl, fun h => hn.1 h.1 hx⟩)
  rw [if_neg hx]
  have hg := hn.2 hx
  cases hf : env.fs (Msk.narrow name) with
  | none => exact .inr (.inr ⟨rfl, by rintro ⟨_, c, h, _⟩; cases h⟩)
  | some c =>
    simp only [hg, true_and, Option.some.injEq, exists_eq_left']
    match c with
    | [] => exact .inr (.inl ⟨rfl, .inl (by simp)⟩)
    | [a] => exact .inr (.inl ⟨rfl, .inl (by simp)⟩)
    | [a, b] => exact .inr (.inl ⟨rfl, .inl (by simp)⟩)
    | [a, b, t] =>
      by_cases ht : t = 0
      · subst ht
        exact .inr (.inl ⟨rfl, .inr ⟨a, b, rfl⟩⟩)
      · refine .inr (.inr ⟨?_, ?_⟩)
        · have : Gds.checkRecord (Gds.rd some 4 [none, none, none, none] ⟨[a, b, t], false⟩).1 0 2 2 =
              .ok (false, Gds.wordBytes (Gds.normalizeWord (Gds.wordOf [a, b]) - 4#16)) := by
            have e : Gds.rd some 4 [none, none, none, none] ⟨[a, b, t], false⟩ = ([some a, some b, some t, none], ⟨[], true⟩) := rfl
            rw [e]
            unfold Gds.checkRecord
            simp only [List.getElem?_cons_zero, List.getElem?_cons_succ, Option.join_some, Gds.cell, Res.ok_bind]
            rw [if_pos ht]
            rfl
          rw [this]
        · rintro (⟨v, w, h | h⟩ | h | ⟨x, y, h⟩)
          · cases h
          · have := h.length_le
            simp at this
          · simp at h
          · simp at h
            exact ht h.2.2
    | a :: b :: t :: d :: rest =>
      have e : Gds.rd some 4 [none, none, none, none] ⟨a :: b :: t :: d :: rest, false⟩ =
          ([some a, some b, some t, some d], ⟨rest, false⟩) := by
        unfold Gds.rd
        rw [if_neg (by simp), if_neg (by simp)]
        rfl
      have hT : ¬ Torn (a :: b :: t :: d :: rest) := by
        rintro (h | ⟨x, y, h⟩)
        · simp at h; omega
        · simp at h
      simp only [hT, or_false]
      rw [e, Gds.checkRecord_full _ _ _ _ _ _ _ (by norm_num)]
      by_cases h1 : t = 0 ∧ d = 2 ∧ 256 * a.toNat + b.toNat = 2 + 4
      · rw [decide_eq_true h1]
        obtain ⟨rfl, rfl, h3⟩ := h1
        obtain ⟨ha, hb⟩ := Gds.eq_bytes (x := 0) (y := 6) (by norm_num) (by norm_num) (by omega : 256 * a.toNat + b.toNat = 256 * 0 + 6)
        have ha : a = 0 := ha
        have hb : b = 6 := hb
        subst ha hb
        have hs : Gds.seek 2 ⟨rest, false⟩ = ⟨rest.drop 2, false⟩ := rfl
        dsimp only
        rw [hs]
        have hd : ([some 0, some 6, some 0, some 2] : List (Option UInt8)).drop 2 = [some 0, some 2] := rfl
        rw [hd, Gds.second_record]
        dsimp only
        by_cases h2 : rest.drop 2 = [0x00, 0x1c, 0x01] ∨ [0x00, 0x1c, 0x01, 0x02] <+: rest.drop 2
        · rw [decide_eq_true h2]
          refine .inl ⟨rfl, ?_⟩
          match rest, h2 with
          | [], h2 => simp at h2
          | [x], h2 => simp at h2
          | x :: y :: rest, h2 =>
            rw [List.drop_succ_cons, List.drop_succ_cons, List.drop_zero] at h2
            refine ⟨x, y, ?_⟩
            rcases h2 with h2 | ⟨u, h2⟩
            · left; rw [h2]
            · right; exact ⟨u, by rw [← h2]; rfl⟩
        · rw [decide_eq_false h2]
          refine .inr (.inr ⟨rfl, ?_⟩)
          rintro ⟨v, w, h | ⟨u, h⟩⟩
          · simp only [List.cons.injEq] at h
            exact h2 (.inl (by rw [h.2.2.2.2]; rfl))
          · simp only [List.cons_append, List.cons.injEq] at h
            exact h2 (.inr ⟨u, by rw [← h.2.2.2.2]; rfl⟩)
      · rw [decide_eq_false h1]
        refine .inr (.inr ⟨rfl, ?_⟩)
        rintro ⟨v, w, h | ⟨u, h⟩⟩
        · simp only [List.cons.injEq] at h
          exact h1 ⟨h.2.2.1, h.2.2.2.1, by rw [h.1, h.2.1]; rfl⟩
        · simp only [List.cons_append, List.cons.injEq] at h
          exact h1 ⟨h.2.2.1.symm, h.2.2.2.1.symm, by rw [← h.1, ← h.2.1]; rfl⟩

/-- C46 and C51 at work: a reader that has just recognised a file still refuses to read it. -/
example (data : LayoutData) (heap : Elements) : ∃ env : Gds.Env, ∃ r,
    Gds.isMyFormat env [97, 46, 103, 100, 115] {} = .ok true r ∧ Gds.read env 0 false ⟨r, data, heap⟩ = .ok false ⟨r, data, heap⟩ := by
  let c : List UInt8 := [0x00, 0x06, 0x00, 0x02, 0x02, 0x58, 0x00, 0x1c, 0x01, 0x02]
  let env : Gds.Env := { fs := fun _ => some c, rnd := id, mem := fun _ => [] }
  have hh : GdsHead c := ⟨0x02, 0x58, .inr (List.prefix_refl _)⟩
  have hnm : GdsName [97, 46, 103, 100, 115] := ⟨_, .inl rfl, .inr ⟨[97], rfl⟩⟩
  have hc := C51_is_my_format env {} [97, 46, 103, 100, 115] (by norm_num)
  have : Gds.isMyFormat env [97, 46, 103, 100, 115] {} = .ok true { fileName := [97, 46, 103, 100, 115] } := by
    rcases hc with h | ⟨_, _, c', h1, h2⟩ | ⟨_, h⟩
    · exact h.1
    · have h3 : c = c' := Option.some.inj h1
      subst h3
      rcases h2 with h2 | ⟨_, _, h2⟩
      · exact absurd h2 (by decide)
      · exact absurd (congrArg List.length h2) (by simp [c])
    · exact absurd ⟨hnm, c, rfl, .inl hh⟩ h
  exact ⟨env, _, this, C46_read_fails env _ (.isMyFormat .fresh this) _ _ _ _⟩

/-- C51 at work: a file of one byte is undefined behaviour, a missing one is just refused. -/
example : Gds.isMyFormat ⟨fun _ => some [7], id, fun _ => []⟩ [103, 100, 115] {} = .ub ∧
    Gds.isMyFormat ⟨fun _ => none, id, fun _ => []⟩ [103, 100, 115] {} = .ok false { fileName := [103, 100, 115] } := by
  constructor <;> decide

/-! ### C47 -/

/-- **C47** The enumeration gives every library one layer for every distinct pair of layer number and data type of its
geometries (references aside) that it has no layer for yet.  The numbers come out in ascending order, the data types stay
in the order in which the pairs first occurred (`Spec.Gdsii.Enumerated`). -/
theorem C47_enumerate (heap : Elements) (ls : List Library) (hn : ∀ l ∈ ls, NoNulls heap l) :
    ∃ ls', Gds.enumerateLayers heap (ls.map some) = .ok (ls'.map some) ∧ List.Forall₂ (Enumerated heap) ls ls' :=
  Gds.enumerate_spec heap ls hn

/-- two lists of pairs with the same components -/
theorem pairs_ext {ls : List Layer} {ps : List (Int × Int)} (h1 : ls.map Layer.layer = ps.map Prod.fst)
    (h2 : ls.map Layer.dataType = ps.map Prod.snd) : ls.map (fun y => (y.layer, y.dataType)) = ps := by
  apply List.ext_getElem
  · have := congrArg List.length h1
    simpa using this
  · intro i hi hi'
    have e1 : (ls.map Layer.layer)[i]? = (ps.map Prod.fst)[i]? := by rw [h1]
    have e2 : (ls.map Layer.dataType)[i]? = (ps.map Prod.snd)[i]? := by rw [h2]
    rw [List.length_map] at hi
    simp only [List.getElem?_map, List.getElem?_eq_getElem hi, List.getElem?_eq_getElem hi', Option.map_some, Option.some.injEq] at e1 e2
    rw [List.getElem_map, e1, e2]

theorem enumerated_sorted {heap : Elements} {l l' : Library} (h : Enumerated heap l l')
    (hs : ((enumPairs heap l).map Prod.fst).Pairwise (· ≤ ·)) : l'.layers.map (fun y => (y.layer, y.dataType)) = enumPairs heap l :=
  pairs_ext (h.numbers.eq_of_pairwise (fun a b _ _ h1 h2 => le_antisymm h1 h2) h.sorted hs) h.types

/-- **C47** So the layers of a library that had none are right when the pairs first occur in ascending order of their
numbers, -/
theorem C47_right_when_sorted (heap : Elements) (l l' : Library) (hl : l.layers = []) (h : Enumerated heap l l')
    (hs : ((firstOccurrences (pairsOf heap l)).map Prod.fst).Pairwise (· ≤ ·)) :
    l'.layers.map (fun y => (y.layer, y.dataType)) = firstOccurrences (pairsOf heap l) := by
  rw [← Gds.enumPairs_fresh hl] at hs ⊢
  exact enumerated_sorted h hs

/-- **C47** and enumerating them again changes nothing, however often, -/
theorem C47_again (heap : Elements) (l l' l'' : Library) (hl : l.layers = []) (h : Enumerated heap l l')
    (hs : ((firstOccurrences (pairsOf heap l)).map Prod.fst).Pairwise (· ≤ ·)) (h' : Enumerated heap l' l'') : l'' = l' := by
  have e1 := C47_right_when_sorted heap l l' hl h hs
  have hp : pairsOf heap l' = pairsOf heap l := by rw [h.rest]; rfl
  have e2 : enumPairs heap l' = layerPairsOf l' := by
    unfold enumPairs
    rw [hp]
    have : (firstOccurrences (pairsOf heap l)).filter (· ∉ layerPairsOf l') = [] := by
      rw [List.filter_eq_nil_iff]
      intro x hx
      rw [← e1] at hx
      simpa [layerPairsOf] using hx
    rw [this, List.append_nil]
  have e3 : l''.layers.map (fun y => (y.layer, y.dataType)) = l'.layers.map (fun y => (y.layer, y.dataType)) := by
    have := enumerated_sorted h' (by
      rw [e2]
      have := h.sorted
      unfold layerPairsOf
      rwa [List.map_map])
    rw [this, e2]; rfl
  have hlen : l''.layers.length = l'.layers.length := by simpa using congrArg List.length e3
  have e4 := h'.kept
  rw [← hlen, List.take_length] at e4
  have e5 : l''.layers = l'.layers := by
    apply List.ext_getElem hlen
    intro i hi hi'
    have a1 := congrArg (·[i]?) e3
    have a2 := congrArg (·[i]?) e4
    simp only [List.getElem?_map, List.getElem?_eq_getElem hi, List.getElem?_eq_getElem hi', Option.map_some, Option.some.injEq,
      Prod.mk.injEq] at a1 a2
    obtain ⟨b1, b2⟩ := a1
    obtain ⟨b3, b4⟩ := a2
    cases hx : l''.layers[i]
    cases hy : l'.layers[i]
    rw [hx, hy] at b1 b2 b3 b4
    dsimp only at b1 b2 b3 b4
    subst b1; subst b2; subst b3; subst b4; rfl
  rw [h'.rest, e5]

/-- **C47** and wrong otherwise: two polygons on layers `n > m` with data types `d ≠ e` in this order are
enumerated as the layers `(m, d)` and `(n, e)`, neither of which exists. -/
theorem C47_wrong_pairs (n m d e : Int) (h : m < n) (hde : d ≠ e) :
    let heap : Elements := fun _ => { geometries := [some { type := .polygon, layer := n, dataType := d },
      some { type := .polygon, layer := m, dataType := e }] }
    ∃ l', Gds.enumerateLayers heap [some { elements := [some 0] }] = .ok [some l'] ∧
      l'.layers.map (fun y => (y.layer, y.dataType)) = [(m, d), (n, e)] ∧
      (m, d) ∉ pairsOf heap { elements := [some 0] } ∧ (n, e) ∉ pairsOf heap { elements := [some 0] } := by
  intro heap
  have hp : pairsOf heap { elements := [some 0] } = [(n, d), (m, e)] := rfl
  have hf : firstOccurrences [(n, d), (m, e)] = [(n, d), (m, e)] := by
    have : (m, e) ∉ [(n, d)] := by simp; omega
    simp only [firstOccurrences, List.foldl_cons, List.foldl_nil, List.not_mem_nil, if_false, List.nil_append, this, List.cons_append]
  obtain ⟨ls', h1, h2⟩ := C47_enumerate heap [{ elements := [some 0] }] (by
    intro l hl
    rw [List.mem_singleton.1 hl]
    exact ⟨by simp, by simp [geometriesOf, heap]⟩)
  cases h2 with
  | @cons _ l' _ _ h3 h4 =>
    cases h4
    refine ⟨l', h1, ?_, ?_, ?_⟩
    · have a1 := h3.numbers
      have a2 := h3.types
      have a3 := h3.sorted
      rw [Gds.enumPairs_fresh rfl, hp, hf] at a1 a2
      match hl : l'.layers with
      | [] => rw [hl] at a2; cases a2
      | [_] => rw [hl] at a2; cases a2
      | _ :: _ :: _ :: _ => rw [hl] at a2; cases a2
      | [x, y] =>
        rw [hl] at a1 a2 a3
        simp only [List.map_cons, List.map_nil, List.cons.injEq, and_true] at a1 a2 a3
        rw [List.pairwise_cons] at a3
        have hxy : x.layer ≤ y.layer := a3.1 _ (by simp)
        have hx : x.layer = n ∨ x.layer = m := by
          have := a1.mem_iff.1 (List.mem_cons_self : x.layer ∈ _)
          simpa using this
        have hn : n ∈ [x.layer, y.layer] := a1.mem_iff.2 (by simp)
        have hm : m ∈ [x.layer, y.layer] := a1.mem_iff.2 (by simp)
        simp only [List.mem_cons, List.not_mem_nil, or_false] at hn hm
        simp only [List.map_cons, List.map_nil, List.cons.injEq, Prod.mk.injEq, and_true]
        refine ⟨⟨?_, a2.1⟩, ?_, a2.2⟩ <;> omega
    · rw [hp]; simp; omega
    · rw [hp]; simp; omega

/-- **C47** And layers that hold geometries (an MSK file has been read into the same layout before) get the wrong ones: if
a library has two layers with the numbers `n > m` in this order, and geometries on these layers only, the numbers are
exchanged, while the geometries, the names and the data types stay. -/
theorem C47_exchanges_geometries (heap : Elements) (l : Library) (a b : Layer) (hn : NoNulls heap l) (hl : l.layers = [a, b])
    (hab : b.layer < a.layer) (hp : ∀ x ∈ pairsOf heap l, x = (a.layer, a.dataType) ∨ x = (b.layer, b.dataType)) :
    ∃ l', Gds.enumerateLayers heap [some l] = .ok [some l'] ∧
      l'.layers = [{ a with layer := b.layer }, { b with layer := a.layer }] := by
  obtain ⟨ls', h1, h2⟩ := C47_enumerate heap [l] (by simpa using hn)
  cases h2 with
  | @cons _ l' _ _ h3 h4 =>
    cases h4
    refine ⟨l', h1, ?_⟩
    have hep : enumPairs heap l = [(a.layer, a.dataType), (b.layer, b.dataType)] := by
      unfold enumPairs
      have h0 : layerPairsOf l = [(a.layer, a.dataType), (b.layer, b.dataType)] := by unfold layerPairsOf; rw [hl]; rfl
      have : (firstOccurrences (pairsOf heap l)).filter (· ∉ layerPairsOf l) = [] := by
        rw [List.filter_eq_nil_iff]
        intro x hx
        have hx' : x ∈ pairsOf heap l := Gds.mem_firstOccurrences.1 hx
        rw [h0]
        rcases hp x hx' with rfl | rfl <;> simp
      rw [this, h0]; rfl
    have a1 := h3.numbers
    have a2 := h3.types
    have a3 := h3.sorted
    have a4 := h3.kept
    rw [hep] at a1 a2
    rw [hl] at a4
    match hl' : l'.layers with
    | [] => rw [hl'] at a2; simp at a2
    | [_] => rw [hl'] at a2; simp at a2
    | _ :: _ :: _ :: _ => rw [hl'] at a2; simp at a2
    | [x, y] =>
      rw [hl'] at a1 a2 a3 a4
      simp only [List.map_cons, List.map_nil, List.cons.injEq, and_true, List.length_cons, List.length_nil, List.take_succ_cons,
        List.take_zero, Prod.mk.injEq] at a1 a2 a3 a4
      rw [List.pairwise_cons] at a3
      have hxy : x.layer ≤ y.layer := a3.1 _ (by simp)
      have hn : a.layer ∈ [x.layer, y.layer] := a1.mem_iff.2 (by simp)
      have hm : b.layer ∈ [x.layer, y.layer] := a1.mem_iff.2 (by simp)
      simp only [List.mem_cons, List.not_mem_nil, or_false] at hn hm
      have e1 : x.layer = b.layer := by omega
      have e2 : y.layer = a.layer := by omega
      obtain ⟨⟨n1, g1⟩, n2, g2⟩ := a4
      obtain ⟨d1, d2⟩ := a2
      congr 1
      · cases x; dsimp only at e1 n1 g1 d1; subst e1 n1 g1 d1; rfl
      · congr 1
        cases y; dsimp only at e2 n2 g2 d2; subst e2 n2 g2 d2; rfl

/-- C47 at work: the layers 5 and 3 of an MSK file, as its reader leaves them. -/
example : ∃ l' : Library,
    Gds.enumerateLayers (fun _ => { geometries := [some { type := .rectangle, layer := 5 }, some { type := .rectangle, layer := 3 }] })
      [some { elements := [some 0], layers := [{ layer := 5, geometries := [some { type := .rectangle, layer := 5 }] },
        { layer := 3, geometries := [some { type := .rectangle, layer := 3 }] }] }] = .ok [some l'] ∧
    l'.layers = [{ layer := 3, geometries := [some { type := .rectangle, layer := 5 }] },
      { layer := 5, geometries := [some { type := .rectangle, layer := 3 }] }] :=
  C47_exchanges_geometries _ { elements := [some 0], layers := [{ layer := 5, geometries := [some { type := .rectangle, layer := 5 }] },
    { layer := 3, geometries := [some { type := .rectangle, layer := 3 }] }] } { layer := 5, geometries := [some { type := .rectangle, layer := 5 }] }
    { layer := 3, geometries := [some { type := .rectangle, layer := 3 }] } (by unfold NoNulls; decide) rfl (by decide) (by decide)

/-- C47 at work: pairs in ascending order of their numbers. -/
example : ∃ (heap : Elements) (l l' : Library), l.layers = [] ∧ Enumerated heap l l' ∧
    (((firstOccurrences (pairsOf heap l)).map Prod.fst).Pairwise (· ≤ ·)) ∧ Enumerated heap l' l' ∧ l'.layers.length = 2 := by
  let heap : Elements := fun _ => { geometries := [some { type := .polygon, layer := 3, dataType := 1 },
    some { type := .polygon, layer := 4 }, some { type := .polygon, layer := 3, dataType := 1 }] }
  let l : Library := { elements := [some 0] }
  obtain ⟨ls', _, h2⟩ := C47_enumerate heap [l] (by simp; unfold NoNulls; decide)
  cases h2 with
  | @cons _ l' _ _ h3 h4 =>
    have hs : (((firstOccurrences (pairsOf heap l)).map Prod.fst).Pairwise (· ≤ ·)) := by decide
    have hl := C47_right_when_sorted heap l l' rfl h3 hs
    obtain ⟨ls'', _, h6⟩ := C47_enumerate heap [l'] (by
      simp only [List.mem_singleton, forall_eq]
      rw [h3.rest]
      show NoNulls heap { l with layers := _ }
      unfold NoNulls geometriesOf
      dsimp only
      exact ⟨by decide, by decide⟩)
    cases h6 with
    | @cons _ l'' _ _ h7 h8 =>
      have := C47_again heap l l' l'' rfl h3 hs h7
      subst this
      refine ⟨heap, l, l'', rfl, h3, hs, h7, ?_⟩
      have := congrArg List.length hl
      rw [List.length_map] at this
      rw [this]
      decide

/-! ### C52 -/

/-- **C52** Post-processing a layout without null pointers: when every reference names some element, it succeeds; each
reference then points to the first element of that name, the elements referred to are marked nested, the layers are
enumerated as in C47, and the box of a library is that of its last element that is not nested. -/
theorem C52_post_process (heap : Elements) (ls : List Library) (hn : ∀ l ∈ ls, NoNulls heap l)
    (hr : ∀ g ∈ referencesOf heap ls, (firstNamed heap ls g.refName).isSome) :
    ∃ ls', List.Forall₂ (Enumerated heap) ls ls' ∧
      Gds.postProcess (ls.map some) heap = .ok ((ls'.map (boxOf (resolvedHeap heap ls))).map some, resolvedHeap heap ls, true) := by
  have he : ∀ l ∈ ls, none ∉ l.elements := fun l hl => (hn l hl).1
  have h1 := (Gds.resolveLibs_eq heap ls he ls [] hn).1 ((Gds.okRefs_iff heap ls).2 hr)
  rw [Gds.after_nil, List.nil_append, Gds.after_all] at h1
  obtain ⟨ls', h2, h3⟩ := C47_enumerate (resolvedHeap heap ls) ls (fun l hl => Gds.noNulls_resolved heap ls l (hn l hl))
  have h4 : ∀ l ∈ ls', none ∉ l.elements := by
    intro x hx
    obtain ⟨i, hi, rfl⟩ := List.getElem_of_mem hx
    have hle : ls.length = ls'.length := h3.length_eq
    have := h3.get (i := i) (by omega) hi
    simp only [List.get_eq_getElem] at this
    rw [this.rest]
    have h5 := he (ls[i]'(by omega)) (List.getElem_mem _)
    exact h5
  refine ⟨ls', h3.imp fun _ _ h => Gds.enumerated_resolved h, ?_⟩
  unfold Gds.postProcess
  rw [h1, Res.ok_bind]
  dsimp only
  rw [if_pos rfl, h2, Res.ok_bind, Gds.evaluate_eq _ ls' h4]
  rfl

/-- **C52** Otherwise it fails, with the libraries as they were; some references may have been resolved by then, and the elements
they lead to marked nested, but nothing else has changed. -/
theorem C52_unresolved (heap : Elements) (ls : List Library) (hn : ∀ l ∈ ls, NoNulls heap l)
    (hr : ∃ g ∈ referencesOf heap ls, firstNamed heap ls g.refName = none) :
    ∃ heap', Gds.postProcess (ls.map some) heap = .ok (ls.map some, heap', false) ∧ PartlyResolved heap ls heap' := by
  have he : ∀ l ∈ ls, none ∉ l.elements := fun l hl => (hn l hl).1
  obtain ⟨heap', h1⟩ := (Gds.resolveLibs_eq heap ls he ls [] hn).2 (by
    intro h
    obtain ⟨g, hg, hno⟩ := hr
    have := (Gds.okRefs_iff heap ls).1 h g hg
    rw [hno] at this
    cases this)
  rw [Gds.after_nil] at h1
  refine ⟨heap', ?_, Gds.resolveLibs_partly heap ls he ls (fun _ h => h) heap heap' false (Gds.partly_refl heap ls) h1⟩
  unfold Gds.postProcess
  rw [h1, Res.ok_bind]
  rfl

/-- C52 at work: element `T` (address 0, box (0,0)–(9,9)) refers to element `S` (address 1); `S` becomes nested and the
library gets the box of `T`.  A reference to a name nobody has fails. -/
example : ∃ heap : Elements, ∃ lib : Library,
    (heap 0).name = [84] ∧ (heap 1).name = [83] ∧ NoNulls heap lib ∧ lib.layers = [] ∧
    (∀ g ∈ referencesOf heap [lib], (firstNamed heap [lib] g.refName).isSome) ∧
    ∃ lib', Gds.postProcess [some lib] heap = .ok ([some lib'], resolvedHeap heap [lib], true) ∧
      lib'.max = ⟨9, 9⟩ ∧ (resolvedHeap heap [lib] 1).nested = true ∧ (resolvedHeap heap [lib] 0).nested = false := by
  let t : Element := { name := [84], geometries := [some { type := .reference, refName := [83] }], min := ⟨0, 0⟩, max := ⟨9, 9⟩ }
  let s : Element := { name := [83], geometries := [some { type := .polygon, layer := 4 }] }
  let heap : Elements := fun a => if a = 0 then t else s
  let lib : Library := { elements := [some 0, some 1] }
  have hr : ∀ g ∈ referencesOf heap [lib], (firstNamed heap [lib] g.refName).isSome := by decide
  have hn : NoNulls heap lib := by unfold NoNulls; decide
  refine ⟨heap, lib, rfl, rfl, hn, rfl, hr, ?_⟩
  obtain ⟨ls', h1, h2⟩ := C52_post_process heap [lib] (by simpa using hn) hr
  cases h1 with
  | @cons _ l' _ _ h3 h4 =>
    cases h4
    refine ⟨_, h2, ?_, by decide, by decide⟩
    unfold boxOf
    rw [h3.rest]
    have : ((lib.elements.filterMap id).filter fun a => !(resolvedHeap heap [lib] a).nested) = [0] := by decide
    dsimp only
    rw [this]
    rfl


end Verif.Props
