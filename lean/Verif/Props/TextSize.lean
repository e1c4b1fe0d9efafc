import Verif.Props.Union
import Verif.Props.EncodeMemory
import Verif.Spec.TextSize

/-! C95: the length of the stored text of a bitmap. -/

namespace Verif.Props
open Verif BitMatrix Zond Spec Ieee Generator Client

/-! ### Runs and changes -/

/-- number of neighbours that differ -/
def trans : List Bool → Nat
  | [] => 0
  | [_] => 0
  | a :: b :: l => (if a != b then 1 else 0) + trans (b :: l)

theorem trans_map (g : Nat → Bool) : ∀ n s : Nat,
    trans ((List.range' s (n + 1)).map g) = (List.range' s n).countP fun k => g k != g (k + 1)
  | 0, s => rfl
  | n + 1, s => by
    have ih := trans_map g n (s + 1)
    rw [List.range'_succ, List.range'_succ] at *
    simp only [List.map_cons] at ih ⊢
    rw [trans, ih, List.range'_succ, List.countP_cons, Nat.add_comm]

theorem trans_replicate (v : Bool) (l : List Bool) : ∀ k : Nat,
    trans (List.replicate (k + 1) v ++ l) = trans (v :: l)
  | 0 => rfl
  | k + 1 => by
    rw [← trans_replicate v l k]
    simp [List.replicate_succ, trans]

theorem trans_runs : ∀ rs : List (Bool × Nat), Runs rs → trans (runsBits rs) = rs.length - 1
  | [], _ => rfl
  | [(v, k)], h => by
    have := h.pos (v, k) (by simp)
    obtain ⟨k, rfl⟩ : ∃ m, k = m + 1 := ⟨k - 1, by simp only at this; omega⟩
    simp only [runsBits, List.flatMap_cons, List.flatMap_nil, trans_replicate]
    rfl
  | (v, k) :: (v', k') :: rs, h => by
    have hp := h.pos (v, k) (by simp)
    have hp' := h.pos (v', k') (by simp)
    obtain ⟨k, rfl⟩ : ∃ m, k = m + 1 := ⟨k - 1, by simp only at hp; omega⟩
    obtain ⟨k', rfl⟩ : ∃ m, k' = m + 1 := ⟨k' - 1, by simp only at hp'; omega⟩
    have hr : Runs ((v', k' + 1) :: rs) := ⟨fun r hr => h.pos r (by simp [hr]), (List.isChain_cons_cons.1 h.alternate).2⟩
    have hne : v ≠ v' := (List.isChain_cons_cons.1 h.alternate).1
    have ih := trans_runs _ hr
    have e : runsBits ((v, k + 1) :: (v', k' + 1) :: rs) = List.replicate (k + 1) v ++ runsBits ((v', k' + 1) :: rs) := rfl
    have e' : runsBits ((v', k' + 1) :: rs) = v' :: (List.replicate k' v' ++ runsBits rs) := by
      simp [runsBits, List.replicate_succ]
    rw [e, trans_replicate]
    rw [e'] at ih ⊢
    rw [trans, ih]
    simp [hne, Nat.add_comm]

theorem runs_changes {R C : Nat} (h1 : 0 < R) (h2 : 0 < C) {f : Nat → Nat → Bool} {rs : List (Bool × Nat)} (hr : Runs rs)
    (hb : runsBits rs = rowMajor R C f) : rs.length = changes R C f + 1 := by
  have hpos := Nat.mul_pos h1 h2
  have h := trans_runs rs hr
  rw [hb, rowMajor] at h
  obtain ⟨n, hn⟩ : ∃ n, R * C = n + 1 := ⟨R * C - 1, by omega⟩
  rw [hn, List.range_eq_range', trans_map (fun n => f (n / C) (n % C))] at h
  have hne : rs ≠ [] := by
    rintro rfl
    have := congrArg List.length hb
    simp [rowMajor, runsBits] at this
    omega
  have := List.length_pos_iff.2 hne
  rw [changes, hn, List.range_eq_range']
  simp only [Nat.add_sub_cancel]
  omega

theorem sum_bytes (l : List (Bool × Nat)) :
    l.length ≤ (l.map fun r => r.2 / 127 + 1).sum ∧ (l.map fun r => r.2 / 127 + 1).sum ≤ l.length + (l.map fun r => r.2).sum / 127 := by
  induction l with
  | nil => simp
  | cons r l ih =>
    simp only [List.map_cons, List.sum_cons, List.length_cons]
    omega

/-- **C95** The code of a bitmap has at least one byte more than the picture has changes, and at most that plus one byte for 127 cells. -/
theorem C95_code_size (m : BitMatrix) (hm : Built m) (h1 : 0 < m.isize) (h2 : 0 < m.jsize) (f : Nat → Nat → Bool)
    (hf : ∀ i j, i < m.isize → j < m.jsize → BitMatrix.get m i j = .ok (f i j)) :
    ∃ s, Rle.encode m = .ok s ∧ changes m.isize m.jsize f + 1 ≤ s.length ∧
      s.length ≤ changes m.isize m.jsize f + 1 + m.isize * m.jsize / 127 := by
  obtain ⟨rs, hu, -⟩ := C27_exact_code m hm h1 h2 f hf
  obtain ⟨hr, hb⟩ := (hu rs).2 rfl
  obtain ⟨s, e, hl, -, -⟩ := C27_size m hm h1 h2 f hf rs hr hb
  have hc := runs_changes h1 h2 hr hb
  have hlen := congrArg List.length hb
  rw [Rle.runsBits_length] at hlen
  simp only [rowMajor, List.length_map, List.length_range] at hlen
  obtain ⟨s1, s2⟩ := sum_bytes rs
  rw [hlen] at s2
  exact ⟨s, e, by omega, by omega⟩

theorem splitLoop_exact (v : List UInt8) (hv : v ≠ []) :
    (Base64.splitLoop Base64.endline 76 (by decide) v).length = linesLen v.length := by
  obtain ⟨full, last, h1, h2, h3, h4, h5⟩ := Base64.splitLoop_spec 76 (by decide) v hv
  rw [h5]
  have a : ∀ (f : List (List UInt8)), (∀ l ∈ f, l.length = 76) →
      f.flatten.length = 76 * f.length ∧ ((f.map (· ++ Base64.endline)).flatten).length = 78 * f.length := by
    intro f
    induction f with
    | nil => intro _; simp
    | cons x xs ih =>
      intro h
      obtain ⟨i1, i2⟩ := ih (fun l hl => h l (by simp [hl]))
      have hx := h x (by simp)
      constructor
      · rw [List.flatten_cons, List.length_append, i1, hx, List.length_cons]; omega
      · rw [List.map_cons, List.flatten_cons, List.length_append, i2, List.length_append, hx,
          List.length_cons]; simp [Base64.endline]; omega
  obtain ⟨a1, a2⟩ := a full h1
  have hlen := congrArg List.length h4
  rw [List.length_append, a1] at hlen
  rw [List.length_append, a2, linesLen]
  omega

/-- **C95** The text of a bitmap whose code has `L` bytes: exactly 70 characters for the frame and the checksum, and the code in Base64 with
62 characters of size and section names, in Base64 once more, in lines of 76. -/
theorem C95_text_exact (m : BitMatrix) (hm : Built m) (h1 : 0 < m.isize) (h2 : 0 < m.jsize)
    (h : List UInt8) (e : LayoutMatrix.getHash m = .ok h) :
    ∃ s, Rle.encode m = .ok s ∧ h.length = 70 + linesLen (b64Len (b64Len s.length + 62)) := by
  obtain ⟨code, R, body, t, ec, hne, rfl, _, _, ht, hR, hbody⟩ := hash_parts hm h1 h2 e
  have hil : t.length = (Base64.encF false code).length + 62 := by
    simp [ht, LayoutMatrix.inner, LayoutMatrix.sp_length, LayoutMatrix.ss_length, LayoutMatrix.se_length, LayoutMatrix.szText_length]
  have a1 := splitLoop_exact (Base64.encF false t) (Base64.encF_ne_nil false (by simp [ht, LayoutMatrix.inner]))
  rw [← hbody, Base64.encF_length, hil, Base64.encF_length] at a1
  refine ⟨code, ec, ?_⟩
  rw [List.length_append, List.length_append, LayoutMatrix.strBegin_length, LayoutMatrix.strEnd_length, hR, List.length_append, crcText_length, a1]
  simp only [b64Len]
  omega

/-- **C95** So the text has at most two characters per change and per 127 cells (and 300 more), and at least one per change. -/
theorem C95_text_size (m : BitMatrix) (hm : Built m) (h1 : 0 < m.isize) (h2 : 0 < m.jsize) (f : Nat → Nat → Bool)
    (hf : ∀ i j, i < m.isize → j < m.jsize → BitMatrix.get m i j = .ok (f i j)) (h : List UInt8) (e : LayoutMatrix.getHash m = .ok h) :
    changes m.isize m.jsize f + m.isize * m.jsize / 127 ≤ 2 * h.length ∧ changes m.isize m.jsize f ≤ h.length ∧
      h.length ≤ 2 * (changes m.isize m.jsize f + m.isize * m.jsize / 127) + 300 := by
  obtain ⟨s, es, l⟩ := C95_text_exact m hm h1 h2 h e
  obtain ⟨s', es', l1, l2⟩ := C95_code_size m hm h1 h2 f hf
  rw [es] at es'
  cases es'
  rw [l]
  obtain ⟨rs, hu, -⟩ := C27_exact_code m hm h1 h2 f hf
  obtain ⟨hr, hb⟩ := (hu rs).2 rfl
  obtain ⟨s', es', -, -, l3⟩ := C27_size m hm h1 h2 f hf rs hr hb
  rw [es] at es'
  cases es'
  simp only [b64Len, linesLen]
  omega

/-! ### Unions of boxes -/

theorem boxes_changes {n R C : Nat} {f : Nat → Nat → Bool} (hu : UnionOfBoxes n R C f) : changes R C f ≤ 2 * n * R := by
  obtain ⟨bs, rfl, hf⟩ := hu
  -- the places: rows × boxes × (just before the box, last cell of the box)
  let P : Finset Nat := (Finset.range R ×ˢ Finset.range bs.length ×ˢ (Finset.univ : Finset Bool)).image fun t =>
    let b := bs.getD t.2.1 (0, 0, 0, 0)
    if t.2.2 then t.1 * C + b.2.2.1 - 1 else t.1 * C + min b.2.2.2 (C - 1)
  have hcard : P.card ≤ 2 * bs.length * R := by
    refine Finset.card_image_le.trans ?_
    simp only [Finset.card_product, Finset.card_range, Finset.card_univ, Fintype.card_bool]
    exact le_of_eq (by ring)
  refine le_trans ?_ hcard
  have hc : changes R C f = ((Finset.range (R * C - 1)).filter fun n => (f (n / C) (n % C) != f ((n + 1) / C) ((n + 1) % C)) = true).card := by
    unfold changes
    rw [List.countP_eq_length_filter]
    simp only [Finset.card, Finset.filter, Finset.range, Multiset.range, Multiset.filter_coe, Multiset.coe_card, Bool.decide_eq_true]
  rw [hc]
  apply Finset.card_le_card
  intro k hk
  rw [Finset.mem_filter, Finset.mem_range] at hk
  obtain ⟨hk, hne⟩ := hk
  have hC : 0 < C := by
    rcases Nat.eq_zero_or_pos C with h | h
    · subst h; simp at hk
    · exact h
  have hlt : ∀ q, q < R * C → q / C < R ∧ q % C < C := fun q hq =>
    ⟨Nat.div_lt_of_lt_mul (by rw [Nat.mul_comm]; exact hq), Nat.mod_lt _ hC⟩
  obtain ⟨i1, j1⟩ := hlt k (by omega)
  obtain ⟨i2, j2⟩ := hlt (k + 1) (by omega)
  have d1 := Nat.div_add_mod' k C
  have d2 := Nat.div_add_mod' (k + 1) C
  rw [bne_iff_ne] at hne
  -- one of the two cells is in a box that the other is not in
  have hex : (∃ b ∈ bs, (b.1 ≤ k / C ∧ k / C ≤ b.2.1 ∧ b.2.2.1 ≤ k % C ∧ k % C ≤ b.2.2.2) ∧
      ¬ (b.1 ≤ (k + 1) / C ∧ (k + 1) / C ≤ b.2.1 ∧ b.2.2.1 ≤ (k + 1) % C ∧ (k + 1) % C ≤ b.2.2.2)) ∨
      (∃ b ∈ bs, (b.1 ≤ (k + 1) / C ∧ (k + 1) / C ≤ b.2.1 ∧ b.2.2.1 ≤ (k + 1) % C ∧ (k + 1) % C ≤ b.2.2.2) ∧
      ¬ (b.1 ≤ k / C ∧ k / C ≤ b.2.1 ∧ b.2.2.1 ≤ k % C ∧ k % C ≤ b.2.2.2)) := by
    by_cases ha : f (k / C) (k % C) = true
    · left
      obtain ⟨b, hb, hin⟩ := (hf _ _ i1 j1).1 ha
      refine ⟨b, hb, hin, fun h => hne ?_⟩
      rw [ha, (hf _ _ i2 j2).2 ⟨b, hb, h⟩]
    · right
      have hb' : f ((k + 1) / C) ((k + 1) % C) = true := by
        rw [Bool.not_eq_true] at ha
        rw [ha] at hne
        simpa using hne
      obtain ⟨b, hb, hin⟩ := (hf _ _ i2 j2).1 hb'
      exact ⟨b, hb, hin, fun h => ha ((hf _ _ i1 j1).2 ⟨b, hb, h⟩)⟩
  have mem : ∀ (b) (_ : b ∈ bs) (i : Nat) (_ : i < R) (v : Bool),
      (if v then i * C + b.2.2.1 - 1 else i * C + min b.2.2.2 (C - 1)) = k → k ∈ P := by
    intro b hb i hi v hk
    obtain ⟨l, hl, rfl⟩ := List.mem_iff_getElem.1 hb
    refine Finset.mem_image.2 ⟨(i, l, v), by simp [hi, hl], ?_⟩
    simpa [List.getD_eq_getElem?_getD, hl] using hk
  -- the successor is in the same row or at the beginning of the next
  have hsucc : ((k + 1) / C = k / C ∧ (k + 1) % C = k % C + 1) ∨ ((k + 1) / C = k / C + 1 ∧ (k + 1) % C = 0 ∧ k % C = C - 1) := by
    by_cases hl : k % C + 1 < C
    · left
      have : k + 1 = k / C * C + (k % C + 1) := by omega
      rw [this]
      constructor
      · rw [Nat.add_comm, Nat.add_mul_div_right _ _ hC, Nat.div_eq_of_lt hl, Nat.zero_add]
      · rw [Nat.add_comm, Nat.add_mul_mod_self_right, Nat.mod_eq_of_lt hl]
    · right
      have e : k % C = C - 1 := by omega
      have : k + 1 = (k / C + 1) * C := by rw [Nat.add_mul]; omega
      exact ⟨by rw [this, Nat.mul_div_cancel _ hC], by rw [this, Nat.mul_mod_left], e⟩
  rcases hex with ⟨b, hb, ⟨a1, a2, a3, a4⟩, hn⟩ | ⟨b, hb, ⟨a1, a2, a3, a4⟩, hn⟩
  · refine mem b hb _ i1 false ?_
    rcases hsucc with ⟨e1, e2⟩ | ⟨e1, e2, e3⟩
    · rw [e1, e2] at hn
      have : b.2.2.2 = k % C := by omega
      simp only [Bool.false_eq_true, if_false]
      omega
    · simp only [Bool.false_eq_true, if_false]
      omega
  · refine mem b hb _ i2 true ?_
    rcases hsucc with ⟨e1, e2⟩ | ⟨e1, e2, e3⟩
    · rw [e1] at a1 a2 ⊢
      rw [e2] at a3 a4
      have : b.2.2.1 = k % C + 1 := by omega
      simp only [if_true]
      omega
    · simp only [if_true]
      omega

/-- **C95** A picture that is a union of `n` boxes has at most `2·n` changes per row, however large the boxes are. -/
theorem C95_boxes (n : Nat) (m : BitMatrix) (hm : Built m) (h1 : 0 < m.isize) (h2 : 0 < m.jsize) (f : Nat → Nat → Bool)
    (hf : ∀ i j, i < m.isize → j < m.jsize → BitMatrix.get m i j = .ok (f i j)) (hu : UnionOfBoxes n m.isize m.jsize f)
    (h : List UInt8) (e : LayoutMatrix.getHash m = .ok h) :
    changes m.isize m.jsize f ≤ 2 * n * m.isize ∧ h.length ≤ 4 * n * m.isize + 2 * (m.isize * m.jsize / 127) + 300 := by
  have hc := boxes_changes hu
  obtain ⟨-, -, l⟩ := C95_text_size m hm h1 h2 f hf h e
  refine ⟨hc, ?_⟩
  have : 4 * n * m.isize = 2 * (2 * n * m.isize) := by ring
  omega

/-! ### What a geometry draws -/

theorem toI32_bound {x : Fl} {v : Int} (h : x.toI32 = .ok v) : v ≤ 2147483647 := by
  unfold Fl.toI32 at h
  split at h
  · split at h
    · cases h; omega
    · cases h
  · cases h

theorem toSize_bound {x : Fl} {v : Nat} (h : x.toSize = .ok v) : v < 18446744073709551616 := by
  unfold Fl.toSize at h
  split at h
  · split at h
    · cases h; omega
    · cases h
  · cases h

theorem toSize_of_toI32 {x : Fl} {v : Int} {w : Nat} (h : x.toI32 = .ok v) (h' : x.toSize = .ok w) : w ≤ 2147483647 := by
  unfold Fl.toI32 at h
  unfold Fl.toSize at h'
  cases x with
  | fin q =>
    simp only at h h'
    split at h
    · split at h'
      · cases h; cases h'; omega
      · cases h'
    · cases h
  | _ => cases h

theorem Res.bind_ok_inv {α β : Type} {x : Res α} {f : α → Res β} {b : β} (h : x >>= f = .ok b) : ∃ a, x = .ok a ∧ f a = .ok b := by
  cases x with
  | ok a => exact ⟨a, rfl, h⟩
  | throw e => cases h
  | ub => cases h

theorem normPair_bound {rnd : ℚ → ℚ} {b e delta eps : Fl} {b1 b2 : Nat} (h1 : b1 ≤ 2147483648) (h2 : b2 < 18446744073709551616) {r : Nat × Nat}
    (h : normPair rnd b e delta eps b1 b2 = .ok r) : r.1 ≤ 2147483648 ∧ r.2 < 18446744073709551616 := by
  unfold normPair at h
  split at h
  · cases h
  split at h
  · cases h
  split at h
  · cases h
  simp only at h
  obtain ⟨ei, he, h⟩ := Res.bind_ok_inv h
  obtain ⟨bi, hb, h⟩ := Res.bind_ok_inv h
  obtain ⟨d, -, h⟩ := Res.bind_ok_inv h
  split at h
  · split at h
    · obtain ⟨f, hf, h⟩ := Res.bind_ok_inv h
      obtain ⟨s, hs, h⟩ := Res.bind_ok_inv h
      cases h
      have := toSize_of_toI32 hb hf
      have := toSize_bound hs
      exact ⟨by simp only; omega, by simp only; omega⟩
    · cases h
      exact ⟨by norm_num, by norm_num⟩
  · obtain ⟨f, hf, h⟩ := Res.bind_ok_inv h
    obtain ⟨s, hs, h⟩ := Res.bind_ok_inv h
    cases h
    refine ⟨?_, ?_⟩
    · simp only
      split at hf
      · cases hf; exact h1
      · split at hf
        · have := toSize_of_toI32 hb hf; omega
        · obtain ⟨t, ht, hf⟩ := Res.bind_ok_inv hf
          have := toSize_of_toI32 hb ht
          cases hf
          unfold addSz
          omega
    · simp only
      split at hs
      · cases hs; exact h2
      · split at hs
        · exact toSize_bound hs
        · obtain ⟨t, ht, hs⟩ := Res.bind_ok_inv hs
          have := toSize_bound ht
          cases hs
          unfold subSz sz64
          split <;> omega

theorem geometry_box {rnd : ℚ → ℚ} {z : Zond} {R C : Nat} (hb : z.bound = ⟨0, R - 1, 0, C - 1⟩) (hR : R ≤ 2147483647) (hC : C ≤ 2147483647)
    (hR0 : 0 < R) (hC0 : 0 < C) {g : Geometry} {m m' : BitMatrix} (hm : Shape R C m) (h : zondGeometry rnd z (some g) m = .ok () m') :
    ∃ b : Nat × Nat × Nat × Nat, Ones m m' fun i j => i < R ∧ j < C ∧ b.1 ≤ i ∧ i ≤ b.2.1 ∧ b.2.2.1 ≤ j ∧ j ≤ b.2.2.2 := by
  have key : zondRectangle rnd z g = (do
    let lt ← M.lift (Res.idx g.coords 0)
    let rb ← M.lift (Res.idx g.coords 2)
    if coversAll rnd z lt rb then fillAll z.bound
    else
      let q ← M.lift (rawIndicies rnd z lt rb)
      let n ← M.lift (normIndicies rnd z q.1 q.2.1 q.2.2.1 q.2.2.2)
      fillRange z.bound n) := rfl
  have done : ∀ {F : M BitMatrix Unit} {iB iE jB jE : Nat}, Paints R C F (Box R C iB iE jB jE) → F m = .ok () m' →
      ∃ b : Nat × Nat × Nat × Nat, Ones m m' fun i j => i < R ∧ j < C ∧ b.1 ≤ i ∧ i ≤ b.2.1 ∧ b.2.2.1 ≤ j ∧ j ≤ b.2.2.2 := by
    intro F iB iE jB jE hp hF
    obtain ⟨x, e, ho⟩ := hp m hm
    rw [e] at hF
    cases hF
    exact ⟨(iB, iE, jB, jE), ho⟩
  cases ht : g.type <;> simp only [zondGeometry, ht] at h
  case polygon =>
    cases h
    refine ⟨(1, 0, 0, 0), ?_⟩
    have := Ones.refl hm.1
    exact ⟨this.wf, rfl, rfl, fun i j => by simp; omega⟩
  case rectangle =>
    rw [key] at h
    cases h1 : Res.idx g.coords 0 with
    | throw e => rw [h1] at h; cases h
    | ub => rw [h1] at h; cases h
    | ok lt =>
      cases h2 : Res.idx g.coords 2 with
      | throw e => rw [h1, h2] at h; cases h
      | ub => rw [h1, h2] at h; cases h
      | ok rb =>
        rw [h1, h2, M.run_bind_ok (M.run_lift_ok _ _), M.run_bind_ok (M.run_lift_ok _ _)] at h
        by_cases hc : coversAll rnd z lt rb = true
        · rw [if_pos hc] at h
          exact done (fillAll_paints R C z.bound (by rw [hb]; simp only; omega) (by rw [hb]; simp only; omega) (by rw [hb]; simp) (by rw [hb]; simp)) h
        · rw [if_neg hc] at h
          cases h3 : rawIndicies rnd z lt rb with
          | throw e => rw [h3] at h; cases h
          | ub => rw [h3] at h; cases h
          | ok q =>
            rw [h3, M.run_bind_ok (M.run_lift_ok _ _)] at h
            cases h4 : normIndicies rnd z q.1 q.2.1 q.2.2.1 q.2.2.2 with
            | throw e => rw [h4] at h; cases h
            | ub => rw [h4] at h; cases h
            | ok n =>
              rw [h4, M.run_bind_ok (M.run_lift_ok _ _)] at h
              unfold normIndicies at h4
              obtain ⟨p1, hp1, h4⟩ := Res.bind_ok_inv h4
              obtain ⟨p2, hp2, h4⟩ := Res.bind_ok_inv h4
              rw [hb] at hp1 hp2
              have b1 := normPair_bound (by norm_num) (by simp only; omega) hp1
              have b2 := normPair_bound (by norm_num) (by simp only; omega) hp2
              cases h4
              exact done (fillRange_paints R C z.bound _ (by rw [hb]; simp only; omega) (by rw [hb]; simp only; omega)
                (by rw [hb]; simp only; omega) (by rw [hb]; simp only; omega) (by rw [hb]; simp only; omega) (by rw [hb]; simp only; omega)) h
  all_goals cases h

/-- the cells a geometry lights when drawn alone form a box (or none are lit, which is an empty box) -/
theorem lightsAlone_box (rnd : ℚ → ℚ) (mn mx : Coord) {R C : Nat} (hR : R ≤ 2147483647) (hC : C ≤ 2147483647) (hR0 : 0 < R) (hC0 : 0 < C) (s : Geometry) :
    ∃ b : Nat × Nat × Nat × Nat, ∀ i j, i < R → j < C →
      (LightsAlone rnd mn mx R C s i j ↔ b.1 ≤ i ∧ i ≤ b.2.1 ∧ b.2.2.1 ≤ j ∧ j ≤ b.2.2.2) := by
  by_cases h : ∃ m, zondGeometry rnd (genRaster rnd mn mx R C) (some s) (blank R C) = .ok () m
  · obtain ⟨m, hm⟩ := h
    obtain ⟨b, ho⟩ := geometry_box rfl hR hC hR0 hC0 (blank_shape R C) hm
    refine ⟨b, fun i j hi hj => ?_⟩
    have hl : LightsAlone rnd mn mx R C s i j ↔ Lit m i j := by
      constructor
      · rintro ⟨m', e, l⟩
        rw [hm] at e
        cases e
        exact l
      · exact fun l => ⟨m, hm, l⟩
    have hb : cell (blank R C) i j = false := by
      have := @blank_dark R C i j
      rw [lit_iff (blank_shape R C).1] at this
      simpa [blank, hi, hj] using this
    rw [hl, lit_iff ho.wf, ho.rows, ho.cols, ho.bits, hb]
    simp [blank, hi, hj]
  · refine ⟨(1, 0, 0, 0), fun i j _ _ => ⟨?_, ?_⟩⟩
    · rintro ⟨m, e, _⟩
      exact absurd ⟨m, e⟩ h
    · rintro ⟨h1, h2, _, _⟩
      simp only at h1 h2
      omega

/-- a picture drawn by finitely many geometries is a union of boxes -/
theorem drawn_boxes (rnd : ℚ → ℚ) (mn mx : Coord) {R C : Nat} (hR : R ≤ 2147483647) (hC : C ≤ 2147483647) (hR0 : 0 < R) (hC0 : 0 < C)
    (S : List Geometry) (f : Nat → Nat → Bool) (hf : ∀ i j, i < R → j < C → (f i j = true ↔ ∃ s ∈ S, LightsAlone rnd mn mx R C s i j)) :
    UnionOfBoxes S.length R C f := by
  choose b hb using fun s => lightsAlone_box rnd mn mx hR hC hR0 hC0 s
  refine ⟨S.map b, by simp, fun i j hi hj => (hf i j hi hj).trans ?_⟩
  constructor
  · rintro ⟨s, hs, h⟩
    exact ⟨b s, List.mem_map_of_mem hs, (hb s i j hi hj).1 h⟩
  · rintro ⟨x, hx, h⟩
    obtain ⟨s, hs, rfl⟩ := List.mem_map.1 hx
    exact ⟨s, hs, (hb s i j hi hj).2 h⟩

/-- **C95** The generator: if the layers requested contain at most the geometries of the list `S` that touch the window, the text of the bitmap drawn
is not longer than four characters per row and geometry, two per 127 cells and 300 more — whatever the size, the position and the number of
cells of the geometries. -/
theorem C95_drawn (rnd : ℚ → ℚ) (g : Generator) (a : Nat) (mn mx : Coord) (req : List Int) (al : Alloc) (R C : Nat)
    (hr : Ready rnd g a mn mx req al R C) (hR : R ≤ 2147483647) (hC : C ≤ 2147483647) (k : Nat) (mem : Memory) (depth : Nat)
    (hfit : LayoutFits (mem.layouts a) mem.elements) (S : List Geometry)
    (hS : ∀ s, Selected (mem.layouts a) mem.elements (wsOf mn mx) req s → s ∈ S) (b : Bool) (txt : List UInt8) (g' : Generator)
    (hp : Generator.process rnd al (.ok k) mem depth R C g = some (.ok (b, txt) g')) (h : List UInt8)
    (e : LayoutMatrix.getHash (getMatrix g') = .ok h) :
    h.length ≤ 4 * S.length * R + 2 * (R * C / 127) + 300 := by
  classical
  obtain ⟨-, hm, d1, d2, -, hl⟩ := C41_bitmap rnd g a mn mx req al R C hr k mem depth hfit b txt g' hp
  have w := hm.inv.1
  have hf : ∀ i j, i < (getMatrix g').isize → j < (getMatrix g').jsize →
      BitMatrix.get (getMatrix g') i j = .ok (cell (getMatrix g') i j) := fun i j hi hj => get_eq w hi hj
  have hu := drawn_boxes rnd mn mx hR hC hr.rpos hr.cpos
    (S.filter fun s => decide (Selected (mem.layouts a) mem.elements (wsOf mn mx) req s)) (cell (getMatrix g'))
    (fun i j hi hj => by
      have := hl i j
      rw [lit_iff w, d1, d2] at this
      simp only [hi, hj, true_and] at this
      rw [this]
      constructor
      · rintro ⟨s, hs, h⟩
        exact ⟨s, by simp [hs, hS s hs], h⟩
      · rintro ⟨s, hs, h⟩
        exact ⟨s, by simpa using (List.mem_filter.1 hs).2, h⟩)
  have hle := List.length_filter_le (fun s => decide (Selected (mem.layouts a) mem.elements (wsOf mn mx) req s)) S
  obtain ⟨-, l⟩ := C95_boxes _ _ hm (by rw [d1]; exact hr.rpos) (by rw [d2]; exact hr.cpos) _ hf (by rw [d1, d2]; exact hu) h e
  rw [d1, d2] at l
  have := Nat.mul_le_mul_right R (Nat.mul_le_mul_left 4 hle)
  omega

theorem forall₂_both {α β : Type} {P Q T : α → β → Prop} (h : ∀ a b, P a b → Q a b → T a b) {l : List α} {l' : List β}
    (h1 : List.Forall₂ P l l') (h2 : List.Forall₂ Q l l') : List.Forall₂ T l l' := by
  induction h1 with
  | nil => exact .nil
  | cons hd _ ih =>
    cases h2 with
    | cons hd2 t2 => exact .cons (h _ _ hd hd2) (ih t2)

/-- **C95** From the file to the text: for an MSK file as in C62, the bitmap of each layer has a text whose length is bounded by the number of
rectangles of that layer. -/
theorem C95_files (env : Msk.Env) (name : List Nat) (r : Msk.Reader) (cr : Bool) (header : List UInt8)
    (rs : List (Msk.Rect × Int)) (hp : PlainFile env name r cr header rs) (addr : Nat) (heap : Elements)
    (hheap : ∀ e g, some g ∈ (heap e).geometries → g.coords.length < 2 ^ 64) :
    ∃ w, Msk.read env addr false ⟨r, {}, heap⟩ = .ok true w ∧
      ∀ (rnd : ℚ → ℚ) (_ : Rounding rnd) (mn mx : Coord) (R C : Nat) (_ : Grid mn mx R C) (al : Alloc)
        (_ : al R (bytesPerRow C) = none) (mem : Memory) (a : Nat)
        (_ : mem.layouts a = w.data) (_ : mem.elements = w.heap) (k depth : Nat) (ns : List Int)
        (_ : ∀ q ∈ rs, q.2 ∈ ns → Client.Meets mn mx q.1 → Client.StartsInside mn mx R C q.1 ∨ Client.Covers mn mx q.1),
        ∃ g ms g', Generator.init (some a) [0] mn mx (Generator.new rnd) = .ok () g ∧
          Verif.Client.renderLayers rnd al (.ok k) mem depth R C ns g = some (.ok ms g') ∧
          List.Forall₂ (fun n m => ∀ h, LayoutMatrix.getHash m = .ok h →
            h.length ≤ 4 * (rs.countP fun q => q.2 = n) * R + 2 * (R * C / 127) + 300) ns ms := by
  obtain ⟨w, e, hL, hg, _, hoth⟩ := read_plain hp addr heap
  refine ⟨w, e, fun rnd hr mn mx R C hgr al hal mem a ha he k depth ns hd => ?_⟩
  have wp := hgr.wpos
  have hpw := hgr.hpos
  obtain ⟨g, hi⟩ := (C40_first_init rnd [] (Generator.new rnd) .start (by simp) a [0] (by simp) mn mx).1 ⟨by omega, by omega⟩
  have hh := (History.start (rnd := rnd)).call (.initRet hi)
  obtain ⟨ms, g', r1, f1⟩ := render_exact (ls := [0]) hr hgr hal (by rw [ha]; exact hL) (by rw [he]; exact heap_fits hheap hg hoth)
    hp.sizes hp.fits k depth ns _ g hh (by simp) hd
  obtain ⟨ms', g'', r2, f2⟩ := render_all (ls := [0]) hr hgr hal (by rw [ha]; exact hL) (by rw [he]; exact heap_fits hheap hg hoth)
    hp.sizes hp.fits k depth ns _ g hh (by simp) hd
  rw [r1] at r2
  cases r2
  refine ⟨g, ms, g', hi, r1, forall₂_both (fun n m l s h eh => ?_) f1 f2⟩
  obtain ⟨hm, sh⟩ := s
  have w := hm.inv.1
  have hx := hgr.max
  have hf : ∀ i j, i < m.isize → j < m.jsize → BitMatrix.get m i j = .ok (cell m i j) := fun i j hi hj => get_eq w hi hj
  classical
  have hu := drawn_boxes rnd mn mx (by omega) (by omega) hgr.rpos hgr.cpos
    (((rs.filter fun q => q.2 = n).filter fun q => decide (Client.Meets mn mx q.1)).map boxR) (cell m)
    (fun i j hi hj => by
      have := l i j
      rw [lit_iff w, sh.rows, sh.cols] at this
      simp only [hi, hj, true_and] at this
      rw [this]
      simp only [List.mem_map, List.mem_filter, decide_eq_true_eq]
      constructor
      · rintro ⟨q, h1, h2, h3, h4⟩
        exact ⟨boxR q, ⟨q, ⟨⟨h1, h2⟩, h3⟩, rfl⟩, h4⟩
      · rintro ⟨s, ⟨q, ⟨⟨h1, h2⟩, h3⟩, rfl⟩, h4⟩
        exact ⟨q, h1, h2, h3, h4⟩)
  rw [List.length_map] at hu
  have hle := List.length_filter_le (fun q => decide (Client.Meets mn mx q.1)) (rs.filter fun q => q.2 = n)
  rw [← List.countP_eq_length_filter (l := rs)] at hle
  obtain ⟨-, l⟩ := C95_boxes _ _ hm (by rw [sh.rows]; exact hgr.rpos) (by rw [sh.cols]; exact hgr.cpos) _ hf (by rw [sh.rows, sh.cols]; exact hu) h eh
  rw [sh.rows, sh.cols] at l
  have := Nat.mul_le_mul_right R (Nat.mul_le_mul_left 4 hle)
  omega

end Verif.Props
