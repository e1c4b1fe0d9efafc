import Verif.Proofs.GdsiiLayers
import Verif.Proofs.GdsiiHelpers
import Verif.Spec.GdsiiReader

/-! Lemmas about the entry points and the post-processing of the GDSII reader. -/

namespace Verif.Gds
open Verif Spec.Gdsii

/-! ### names -/

theorem findLastOf_none {s : List Nat} (h : 46 ∉ s) : Msk.findLastOf 46 s = 18446744073709551615 := by
  unfold Msk.findLastOf
  have : s.reverse.findIdx? (· == 46) = none := by
    rw [List.findIdx?_eq_none_iff]
    intro x hx
    have hx' : x ∈ s := List.mem_reverse.1 hx
    have : x ≠ 46 := fun e => h (e ▸ hx')
    simpa using this
  rw [this]

theorem findLastOf_some (p ext : List Nat) (h : 46 ∉ ext) : Msk.findLastOf 46 (p ++ 46 :: ext) = p.length := by
  unfold Msk.findLastOf
  have : (p ++ 46 :: ext).reverse.findIdx? (· == 46) = some ext.length := by
    rw [List.reverse_append, List.reverse_cons, List.append_assoc, List.findIdx?_append]
    have h1 : ext.reverse.findIdx? (· == 46) = none := by
      rw [List.findIdx?_eq_none_iff]
      intro x hx
      have hx' : x ∈ ext := List.mem_reverse.1 hx
      have : x ≠ 46 := fun e => h (e ▸ hx')
      simpa using this
    rw [h1]
    simp [List.findIdx?_cons]
  rw [this]
  simp only [List.length_append, List.length_cons]
  omega

/-- splitting at the last dot -/
theorem split_dot (s : List Nat) : 46 ∉ s ∨ ∃ p ext, s = p ++ 46 :: ext ∧ 46 ∉ ext := by
  induction s with
  | nil => exact .inl (by simp)
  | cons c s ih =>
    rcases ih with h | ⟨p, ext, h1, h2⟩
    · by_cases hc : c = 46
      · exact .inr ⟨[], s, by rw [hc]; rfl, h⟩
      · exact .inl (by simp [h, Ne.symm hc])
    · exact .inr ⟨c :: p, ext, by rw [h1]; rfl, h2⟩

theorem extension_iff (name ext : List Nat) (hl : name.length < 18446744073709551616) (he : 46 ∉ ext) :
    extension name = ext ↔ name = ext ∨ ∃ p, name = p ++ 46 :: ext := by
  unfold extension
  rcases split_dot name with h | ⟨p, e, h1, h2⟩
  · rw [findLastOf_none h]
    simp only [Nat.reduceAdd, Nat.mod_self, List.drop_zero]
    constructor
    · exact fun h => .inl h
    · rintro (h3 | ⟨p, rfl⟩)
      · exact h3
      · exact absurd (by simp) h
  · subst h1
    rw [findLastOf_some p e h2]
    have hp : (p.length + 1) % 18446744073709551616 = p.length + 1 := by
      apply Nat.mod_eq_of_lt
      simp only [List.length_append, List.length_cons] at hl
      omega
    rw [hp]
    have hd : (p ++ 46 :: e).drop (p.length + 1) = e := by
      rw [← List.drop_drop, List.drop_left]; rfl
    rw [hd]
    constructor
    · rintro rfl
      exact .inr ⟨p, rfl⟩
    · rintro (h3 | ⟨q, h3⟩)
      · exact absurd (by rw [← h3]; simp) he
      · have : Msk.findLastOf 46 (q ++ 46 :: ext) = q.length := findLastOf_some q ext he
        rw [← h3, findLastOf_some p e h2] at this
        have h4 := List.append_inj h3 this
        exact (List.cons.inj h4.2).2

/-! ### lengths -/

theorem len_iff (b0 b1 : UInt8) (n : Nat) (hn : n + 4 < 65536) :
    (normalizeWord (wordOf [b0, b1]) - 4#16).toNat = n ↔ 256 * b0.toNat + b1.toNat = n + 4 := by
  have h0 := b0.toNat_lt
  have h1 := b1.toNat_lt
  have hw : (wordOf [b0, b1]).toNat = b0.toNat + 256 * b1.toNat := by
    unfold wordOf
    rw [word_toNat]
    simp
  have e : (normalizeWord (wordOf [b0, b1])).toNat = 256 * b0.toNat + b1.toNat := by
    rw [normalizeWord_eq, word_toNat, byte_toNat, byte_toNat, hw]
    omega
  rw [BitVec.toNat_sub, e]
  simp only [BitVec.toNat_ofNat]
  omega

theorem eq_bytes {b0 b1 : UInt8} {x y : Nat} (hx : x < 256) (hy : y < 256) (h : 256 * b0.toNat + b1.toNat = 256 * x + y) :
    b0 = UInt8.ofNat x ∧ b1 = UInt8.ofNat y := by
  have h0 := b0.toNat_lt
  have h1 := b1.toNat_lt
  constructor
  · apply UInt8.toNat.inj
    rw [UInt8.toNat_ofNat']
    omega
  · apply UInt8.toNat.inj
    rw [UInt8.toNat_ofNat']
    omega

/-! ### `IsMyFormat` -/

theorem checkRecord_full (a b t d wt wd : UInt8) (n : Nat) (hn : n + 4 < 65536) :
    checkRecord [some a, some b, some t, some d] wt wd n =
      .ok (decide (t = wt ∧ d = wd ∧ 256 * a.toNat + b.toNat = n + 4), wordBytes (normalizeWord (wordOf [a, b]) - 4#16)) := by
  have e : checkRecord [some a, some b, some t, some d] wt wd n =
      if t ≠ wt then .ok (false, wordBytes (normalizeWord (wordOf [a, b]) - 4#16))
      else if d ≠ wd then .ok (false, wordBytes (normalizeWord (wordOf [a, b]) - 4#16))
      else .ok (decide ((normalizeWord (wordOf [a, b]) - 4#16).toNat = n), wordBytes (normalizeWord (wordOf [a, b]) - 4#16)) := rfl
  rw [e]
  by_cases h1 : t = wt
  · by_cases h2 : d = wd
    · rw [if_neg (by simpa using h1), if_neg (by simpa using h2)]
      congr 2
      rw [decide_eq_decide, len_iff a b n hn]
      simp [h1, h2]
    · rw [if_neg (by simpa using h1), if_pos h2]
      simp [h2]
  · rw [if_pos h1]
    simp [h1]

/-- the second half of `IsMyFormat`, after a HEADER record -/
theorem second_record (rest : List UInt8) :
    checkRecord (rd some 4 ((wordBytes (normalizeWord (wordOf [0, 6]) - 4#16)).map some ++ [some 0, some 2]) ⟨rest, false⟩).1 0x01 2 24 =
      .ok (decide (rest = [0x00, 0x1c, 0x01] ∨ [0x00, 0x1c, 0x01, 0x02] <+: rest),
        wordBytes (normalizeWord (wordOf (match rest with
          | [] => [2, 0] | [x] => [x, 0] | x :: y :: _ => [x, y])) - 4#16)) := by
  have hm : (wordBytes (normalizeWord (wordOf [0, 6]) - 4#16)).map some ++ [some 0, some 2] = [some 2, some 0, some 0, some 2] := by
    decide
  rw [hm]
  have key : ∀ x y : UInt8, (256 * x.toNat + y.toNat = 24 + 4 ↔ x = 0x00 ∧ y = 0x1c) := by
    intro x y
    constructor
    · intro h
      exact eq_bytes (x := 0) (y := 28) (by norm_num) (by norm_num) (by omega)
    · rintro ⟨rfl, rfl⟩; rfl
  match rest with
  | [] =>
    have : rd some 4 [some 2, some 0, some 0, some 2] ⟨[], false⟩ = ([some 2, some 0, some 0, some 2], ⟨[], true⟩) := rfl
    rw [this, checkRecord_full _ _ _ _ _ _ _ (by norm_num)]
    simp
  | [x] =>
    have : rd some 4 [some 2, some 0, some 0, some 2] ⟨[x], false⟩ = ([some x, some 0, some 0, some 2], ⟨[], true⟩) := rfl
    rw [this, checkRecord_full _ _ _ _ _ _ _ (by norm_num)]
    simp
  | [x, y] =>
    have : rd some 4 [some 2, some 0, some 0, some 2] ⟨[x, y], false⟩ = ([some x, some y, some 0, some 2], ⟨[], true⟩) := rfl
    rw [this, checkRecord_full _ _ _ _ _ _ _ (by norm_num)]
    simp
  | [x, y, z] =>
    have : rd some 4 [some 2, some 0, some 0, some 2] ⟨[x, y, z], false⟩ = ([some x, some y, some z, some 2], ⟨[], true⟩) := rfl
    rw [this, checkRecord_full _ _ _ _ _ _ _ (by norm_num)]
    congr 2
    rw [decide_eq_decide, key x y]
    simp
    tauto
  | x :: y :: z :: d :: rest =>
    have : rd some 4 [some 2, some 0, some 0, some 2] ⟨x :: y :: z :: d :: rest, false⟩ =
        ([some x, some y, some z, some d], ⟨rest, false⟩) := by
      unfold rd
      rw [if_neg (by simp), if_neg (by simp)]
      rfl
    rw [this, checkRecord_full _ _ _ _ _ _ _ (by norm_num)]
    congr 2
    rw [decide_eq_decide, key x y]
    simp
    tauto

/-! ### layers -/

/-- the pairs of a list of layers -/
def layerPairs (ls : List Layer) : List (Int × Int) := ls.map fun l => (l.layer, l.dataType)

theorem any_pair (ls : List Layer) (g : Geometry) :
    ls.any (fun l => l.layer == g.layer && l.dataType == dtypeOf g) = decide (pairOf g ∈ layerPairs ls) := by
  rw [Bool.eq_iff_iff, decide_eq_true_iff, List.any_eq_true]
  unfold layerPairs pairOf
  simp only [List.mem_map, Bool.and_eq_true, beq_iff_eq, Prod.mk.injEq]
  rfl

/-- one step of `firstOccurrences` -/
def addPair {α : Type} [DecidableEq α] (acc : List α) (x : α) : List α := if x ∈ acc then acc else acc ++ [x]

theorem addLayers (gs : List (Option Geometry)) (hg : none ∉ gs) (old : List Layer) (ls : List Layer)
    (hp : ∃ t, ls = old ++ t ∧ ∀ y ∈ t, y.name = [] ∧ y.geometries = []) :
    ∃ ls', gs.foldlM addLayer ls = .ok ls' ∧
      layerPairs ls' = (((gs.filterMap id).filter (·.type ≠ .reference)).map pairOf).foldl addPair (layerPairs ls) ∧
      ∃ t, ls' = old ++ t ∧ ∀ y ∈ t, y.name = [] ∧ y.geometries = [] := by
  induction gs generalizing ls with
  | nil => exact ⟨ls, rfl, rfl, hp⟩
  | cons g gs ih =>
    cases g with
    | none => simp at hg
    | some g =>
      have hg' : none ∉ gs := fun h => hg (List.mem_cons_of_mem _ h)
      rw [List.foldlM_cons]
      have e : (some g :: gs).filterMap id = g :: gs.filterMap id := rfl
      rw [e]
      by_cases ht : g.type = .reference
      · have : addLayer ls (some g) = .ok ls := by simp [addLayer, ht]
        rw [this, Res.ok_bind, List.filter_cons_of_neg (by simp [ht])]
        exact ih hg' ls hp
      · rw [List.filter_cons_of_pos (by simp [ht]), List.map_cons, List.foldl_cons]
        by_cases hm : pairOf g ∈ layerPairs ls
        · have h1 : addLayer ls (some g) = .ok ls := by
            unfold addLayer
            dsimp only
            rw [any_pair, decide_eq_true hm]
            simp [ht]
          have h2 : addPair (layerPairs ls) (pairOf g) = layerPairs ls := by unfold addPair; rw [if_pos hm]
          rw [h1, Res.ok_bind, h2]
          exact ih hg' ls hp
        · have h1 : addLayer ls (some g) = .ok (ls ++ [{ layer := g.layer, dataType := dtypeOf g }]) := by
            unfold addLayer
            dsimp only
            rw [any_pair, decide_eq_false hm]
            simp [ht]
          have h2 : addPair (layerPairs ls) (pairOf g) = layerPairs (ls ++ [{ layer := g.layer, dataType := dtypeOf g }]) := by
            unfold addPair
            rw [if_neg hm]
            unfold layerPairs
            rw [List.map_append]
            rfl
          rw [h1, Res.ok_bind, h2]
          refine ih hg' _ ?_
          obtain ⟨t, e1, e2⟩ := hp
          refine ⟨t ++ [{ layer := g.layer, dataType := dtypeOf g }], by rw [e1, List.append_assoc], ?_⟩
          intro y hy
          rcases List.mem_append.1 hy with hy | hy
          · exact e2 y hy
          · rw [List.mem_singleton.1 hy]; exact ⟨rfl, rfl⟩

theorem collect (heap : Elements) (es : List (Option Nat)) (he : none ∉ es)
    (hg : none ∉ es.flatMap (fun e => match e with | none => [] | some a => (heap a).geometries))
    (old : List Layer) (ls : List Layer) (hp : ∃ t, ls = old ++ t ∧ ∀ y ∈ t, y.name = [] ∧ y.geometries = []) :
    ∃ ls', es.foldlM (fun ls e => match e with
        | none => Res.ub
        | some a => (heap a).geometries.foldlM addLayer ls) ls = Res.ok ls' ∧
      layerPairs ls' = ((((es.flatMap (fun e => match e with | none => [] | some a => (heap a).geometries)).filterMap id).filter
        (·.type ≠ .reference)).map pairOf).foldl addPair (layerPairs ls) ∧
      ∃ t, ls' = old ++ t ∧ ∀ y ∈ t, y.name = [] ∧ y.geometries = [] := by
  induction es generalizing ls with
  | nil => exact ⟨ls, rfl, rfl, hp⟩
  | cons e es ih =>
    cases e with
    | none => simp at he
    | some a =>
      rw [List.flatMap_cons] at hg
      rw [List.foldlM_cons, List.flatMap_cons, List.filterMap_append, List.filter_append, List.map_append, List.foldl_append]
      obtain ⟨ls1, h1, h2, h3⟩ := addLayers (heap a).geometries (fun h => hg (List.mem_append_left _ h)) old ls hp
      dsimp only at h1 ⊢
      rw [h1, Res.ok_bind, ← h2]
      exact ih (fun h => he (List.mem_cons_of_mem _ h)) (fun h => hg (List.mem_append_right _ h)) ls1 h3

theorem addPair_first (l : List (Int × Int)) : l.foldl addPair [] = firstOccurrences l := rfl

theorem layerPairs_fst (ls : List Layer) : (layerPairs ls).map Prod.fst = ls.map Layer.layer := by
  unfold layerPairs; rw [List.map_map]; rfl

theorem layerPairs_snd (ls : List Layer) : (layerPairs ls).map Prod.snd = ls.map Layer.dataType := by
  unfold layerPairs; rw [List.map_map]; rfl

/-- adding pairs to a list, in closed form -/
theorem foldl_addPair {α : Type} [DecidableEq α] (l old acc : List α) :
    l.foldl addPair (old ++ acc.filter (· ∉ old)) = old ++ (l.foldl addPair acc).filter (· ∉ old) := by
  induction l generalizing acc with
  | nil => rfl
  | cons x l ih =>
    rw [List.foldl_cons, List.foldl_cons]
    have e : addPair (old ++ acc.filter (· ∉ old)) x = old ++ (addPair acc x).filter (· ∉ old) := by
      unfold addPair
      by_cases h1 : x ∈ old
      · rw [if_pos (List.mem_append_left _ h1)]
        split
        · rfl
        · rw [List.filter_append]
          simp [h1]
      · by_cases h2 : x ∈ acc
        · rw [if_pos (List.mem_append_right _ (List.mem_filter.2 ⟨h2, by simpa using h1⟩)), if_pos h2]
        · rw [if_neg (by simp [h1, h2]), if_neg h2, List.filter_append, List.append_assoc]
          simp [h1]
    rw [e, ih]

theorem enumLib_spec (heap : Elements) (l : Library) (hn : NoNulls heap l) :
    ∃ l', enumLib heap l = .ok l' ∧ Enumerated heap l l' := by
  obtain ⟨ls, h1, h2, t, h3, h4⟩ := collect heap l.elements hn.1 hn.2 l.layers l.layers ⟨[], by simp⟩
  have hc : collectLayers heap l = .ok ls := h1
  have h2' : layerPairs ls = enumPairs heap l := by
    rw [h2]
    have := foldl_addPair (pairsOf heap l) (layerPairs l.layers) []
    rw [List.filter_nil, List.append_nil] at this
    show (pairsOf heap l).foldl addPair (layerPairs l.layers) =
      layerPairs l.layers ++ (firstOccurrences (pairsOf heap l)).filter (· ∉ layerPairs l.layers)
    rw [this, addPair_first]
    congr 1
    exact List.filter_congr fun _ _ => by simp
  have e := sortPasses_rest (fun l => (l.name, l.geometries)) (fun _ _ => rfl) ls.length ls
  refine ⟨{ l with layers := sortPasses ls.length ls }, ?_, ⟨rfl, ?_, ?_, ?_, ?_, ?_⟩⟩
  · unfold enumLib
    rw [hc]; rfl
  · rw [sortPasses_layer]
    have := numPasses_sorted ls.length (ls.map Layer.layer) [] (by simp) List.Pairwise.nil (by simp)
    rwa [List.append_nil] at this
  · rw [sortPasses_layer]
    refine (numPasses_perm _ _).trans ?_
    rw [← layerPairs_fst, h2']
  · rw [sortPasses_rest Layer.dataType (fun _ _ => rfl), ← layerPairs_snd, h2']
  · dsimp only
    rw [List.map_take, e, h3, List.map_append, ← List.length_map (as := l.layers) (fun y => (y.name, y.geometries)),
      List.take_left]
  · intro y hy
    dsimp only at hy
    have hm : (y.name, y.geometries) ∈ ((sortPasses ls.length ls).drop l.layers.length).map (fun l => (l.name, l.geometries)) :=
      List.mem_map.2 ⟨y, hy, rfl⟩
    rw [List.map_drop, e, h3, List.map_append, ← List.length_map (as := l.layers) (fun y => (y.name, y.geometries)),
      List.drop_left, List.mem_map] at hm
    obtain ⟨z, hz, he⟩ := hm
    have := h4 z hz
    rw [Prod.mk.injEq] at he
    exact ⟨he.1 ▸ this.1, he.2 ▸ this.2⟩

theorem mem_firstOccurrences {α : Type} [DecidableEq α] {l : List α} {x : α} : x ∈ firstOccurrences l ↔ x ∈ l := by
  have key : ∀ (l acc : List α), x ∈ l.foldl (fun acc x => if x ∈ acc then acc else acc ++ [x]) acc ↔ x ∈ acc ∨ x ∈ l := by
    intro l
    induction l with
    | nil => simp
    | cons y l ih =>
      intro acc
      rw [List.foldl_cons, ih]
      split
      · rename_i h
        constructor
        · rintro (h | h) <;> simp [h]
        · rintro (h1 | h1)
          · exact .inl h1
          · rcases List.mem_cons.1 h1 with rfl | h1
            · exact .inl h
            · exact .inr h1
      · simp only [List.mem_append, List.mem_singleton, List.mem_cons]
        tauto
  unfold firstOccurrences
  rw [key]; simp

theorem enumPairs_fresh {heap : Elements} {l : Library} (hl : l.layers = []) : enumPairs heap l = firstOccurrences (pairsOf heap l) := by
  unfold enumPairs layerPairsOf
  rw [hl]
  simp

theorem enumerate_spec (heap : Elements) (ls : List Library) (hn : ∀ l ∈ ls, NoNulls heap l) :
    ∃ ls', enumerateLayers heap (ls.map some) = .ok (ls'.map some) ∧ List.Forall₂ (Enumerated heap) ls ls' := by
  induction ls with
  | nil => exact ⟨[], rfl, .nil⟩
  | cons l ls ih =>
    obtain ⟨l', h1, h2⟩ := enumLib_spec heap l (hn l (by simp))
    obtain ⟨ls', h3, h4⟩ := ih (fun x hx => hn x (List.mem_cons_of_mem _ hx))
    refine ⟨l' :: ls', ?_, .cons h2 h4⟩
    rw [List.map_cons, enumerateLayers, h1, Res.ok_bind, h3]
    rfl

end Verif.Gds
