import Verif.Model.Lookup
import Verif.Spec.Lookup
import Verif.Props.FileHistory
import Verif.Props.SimilarLocal

/-! C74: looking a bitmap up in a directory of stored bitmaps. -/

namespace Verif.Props
open Verif BitMatrix LayoutMatrix Ieee
open Verif.Spec.FileHistory
open Verif.Spec (diffCount)

namespace FileHistory

theorem calls_sim (p : Platform) (hp : p.maskedShift = true) (r w : List UInt8 → Bool) (ops : List Op) :
    ∀ (s : World) (x : Real), Sim p r w s x → (∀ o m, Op.assign o m ∈ ops → Storable p m) →
      ∃ h x' s', calls p x ops = some (h, x') ∧ h.map (·.1) = ops ∧ Steps r w s h s' ∧ Sim p r w s' x' := by
  induction ops with
  | nil => intro s x hx _; exact ⟨[], x, s, rfl, rfl, .nil s, hx⟩
  | cons op ops ih =>
    intro s x hx ha
    obtain ⟨ob, x1, s1, e1, st, hx1⟩ := call_sim p hp _ _ s x hx op (fun o m e => ha o m (by rw [e]; exact List.mem_cons_self))
    obtain ⟨h, x2, s2, e2, em, sts, fin⟩ := ih s1 x1 hx1 (fun o m hm => ha o m (List.mem_cons_of_mem _ hm))
    refine ⟨(op, ob) :: h, x2, s2, ?_, by simp [em], .cons st sts, fin⟩
    simp only [calls, e1, e2, Option.bind_eq_bind, Option.bind_some]

/-- the bits of the first matrix are all that counts -/
theorem diffCount_congr {a a' b : BitMatrix} (h : SameBits a a') : diffCount a b = diffCount a' b := by
  unfold diffCount
  rw [h.1, h.2.1]
  congr 1
  apply Finset.filter_congr
  rintro ⟨i, j⟩ hij
  simp only [Spec.cells, Finset.mem_product, Finset.mem_range] at hij
  rw [h.2.2 i j (by rw [h.1]; exact hij.1) (by rw [h.2.1]; exact hij.2)]

/-- `==` on all sizes -/
theorem opEq_any (a b : BitMatrix) (ha : Built a) (hb : Built b) (h3 : 0 < a.isize) (h4 : 0 < a.jsize)
    (hs : a.isize * a.jsize ≤ 2 ^ 38) :
    BitMatrix.opEq rne Alloc.ok a b =
      .ok (decide (a.isize = b.isize ∧ a.jsize = b.jsize ∧ diffCount a b * 10000 ≤ a.isize * a.jsize)) := by
  by_cases h : a.isize = b.isize ∧ a.jsize = b.jsize
  · rw [(C09_eq_ne_threshold a b ha hb h.1 h.2 h3 h4 hs).1]
    congr 1
    rw [decide_eq_decide]
    exact ⟨fun k => ⟨h.1, h.2, k⟩, fun k => k.2.2⟩
  · have hc := C09_compare_error a b (by tauto)
    have hp : (0 : ℚ) ≤ rne (9999 / 10000) := by
      have := rne_rounding.mono 0 (9999 / 10000) (by norm_num); rwa [rne_zero] at this
    simp only [BitMatrix.opEq, hc, Res.ok_bind, Dbl.ge, Res.pure_eq]
    congr 1
    rw [decide_eq_decide]
    constructor
    · intro k; linarith
    · intro k; exact absurd ⟨k.1, k.2.1⟩ h

open Classical in
theorem lookup_sim (p : Platform) (hp : p.maskedShift = true) {r w : List UInt8 → Bool} {s : World} {x : Real}
    (hx : Sim p r w s x) (old q : BitMatrix) (hq : Built q) (names : List (List UInt8)) :
    Client.lookup p x.fs old q names = some (names.filter fun n => Matching r s.disk q n) := by
  induction names with
  | nil => rfl
  | cons n ns ih =>
    have hskip : ∀ (hm : ¬ Matching r s.disk q n), (n :: ns).filter (fun n => Matching r s.disk q n) =
        ns.filter fun n => Matching r s.disk q n := by
      intro hm; rw [List.filter_cons_of_neg (by simpa using hm)]
    unfold Client.lookup
    by_cases hcl : n = [] ∨ r n = false ∨ s.disk n = .absent
    · have hm : ¬ Matching r s.disk q n := by
        rintro ⟨a, b, m, c, -⟩
        rcases hcl with h | h | h
        · exact a h
        · rw [b] at h; cases h
        · rw [c] at h; cases h
      have : readFile p Alloc.ok x.fs n old = .ok false old := by
        apply (C32_read_missing p Alloc.ok x.fs n old).1
        rcases hcl with hc | hc | hc
        · exact .inl hc
        · exact .inr (.inl (by rw [hx.canRead]; exact hc))
        · have := hx.files n
          rw [hc] at this
          exact .inr (.inr this)
      rw [this, hskip hm]
      exact ih
    · push Not at hcl
      obtain ⟨hn, hr, hab⟩ := hcl
      have hr : r n = true := by simpa using hr
      have hnr : ¬ x.fs.readable n = false := by rw [hx.canRead, hr]; simp
      have hf := hx.files n
      cases hd : s.disk n with
      | absent => exact absurd hd hab
      | damaged =>
        have hm : ¬ Matching r s.disk q n := by
          rintro ⟨a, b, m, c, -⟩
          rw [c] at hd; cases hd
        rw [hd] at hf
        obtain ⟨c, h1, h2⟩ := hf
        have : readFile p Alloc.ok x.fs n old = .throw .invalidArgument old := by
          simp only [readFile, hn, hnr, if_false, h1, h2, Bool.true_eq_false]
        rw [this, hskip hm]
        exact ih
      | holds m =>
        rw [hd] at hf
        obtain ⟨m1, h, b1, hs1, z1, z2, he, hc⟩ := hf
        obtain ⟨m', e', b', hs', hv⟩ := decode_storable p hp m1 hs1 z1 z2 h he
        have this : readFile p Alloc.ok x.fs n old = .ok true m' := by
          simp only [readFile, hn, hnr, if_false, hc, e', hv, Bool.true_eq_false, Bool.false_eq_true, assignMoveL]
        have b := sameBits_trans b1 b'
        rw [this]
        dsimp only
        have hz1 : 0 < m'.isize := by rw [← b'.1]; omega
        have hz2 : 0 < m'.jsize := by rw [← b'.2.1]; omega
        rw [opEq_any m' q hs'.built hq hz1 hz2 (by have := hs'.small; omega), ← diffCount_congr b, ← b.1, ← b.2.1]
        by_cases hm : m.isize = q.isize ∧ m.jsize = q.jsize ∧ diffCount m q * 10000 ≤ m.isize * m.jsize
        · have hM : Matching r s.disk q n := ⟨hn, hr, m, hd, hm.1, hm.2.1, by rw [← hm.1, ← hm.2.1]; exact hm.2.2⟩
          rw [decide_eq_true hm, ih, List.filter_cons_of_pos (by simpa using hM)]
          rfl
        · have hM : ¬ Matching r s.disk q n := by
            rintro ⟨_, _, m2, c, e1, e2, e3⟩
            rw [hd] at c
            cases c
            exact hm ⟨e1, e2, by rw [e1, e2]; exact e3⟩
          rw [decide_eq_false hm, hskip hM]
          exact ih

end FileHistory

open FileHistory

open Classical in
/-- **C74** Looking a bitmap up: after any history of `FlushFile` and `ReadFile` calls (as in C64, torn writes included) the
client that reads every file of a list of names and compares with `==` finds exactly the names under which, by the map of C64,
a bitmap of the same size is stored that differs in at most every ten thousandth cell; damaged, missing and unreadable files
do not disturb it. -/
theorem C74_lookup (p : Platform) (hp : p.maskedShift = true) (ops : List Op) (objs : Nat → BitMatrix) (fs : Fs)
    (h0 : ∀ n, fs.files n = none) (hobjs : ∀ o, Storable p (objs o)) (hops : ∀ o m, Op.assign o m ∈ ops → Storable p m) :
    ∃ h x s, calls p ⟨objs, fs⟩ ops = some (h, x) ∧ h.map (·.1) = ops ∧
      Steps fs.readable fs.writable ⟨objs, fun _ => .absent⟩ h s ∧
      ∀ (old q : BitMatrix), Built q → ∀ names : List (List UInt8),
        Client.lookup p x.fs old q names = some (names.filter fun n => Matching fs.readable s.disk q n) := by
  obtain ⟨h, x, s, e, em, st, sim⟩ := calls_sim p hp fs.readable fs.writable ops ⟨objs, fun _ => .absent⟩ ⟨objs, fs⟩
    ⟨fun o => ⟨sameBits_refl _, hobjs o⟩, fun n => h0 n, rfl, rfl⟩ hops
  exact ⟨h, x, s, e, em, st, fun old q hq names => lookup_sim p hp sim old q hq names⟩

/-- **C74** Which layouts match: a stored bitmap that shows (C62) rectangles corresponding one to one to those of the query, with no
side moved by more than `δ` cells, matches if the rims of the rectangles make up at most a ten thousandth of the bitmap … -/
theorem C74_similar_found (mn mx : Coord) (R C : Nat) (hR : 0 < R) (hC : 0 < C) (hw : mn.x < mx.x) (hh : mn.y < mx.y) (δ : ℚ)
    (rs rs' : List Spec.Msk.Rect) (hcl : List.Forall₂ (Spec.Client.CloseRect mn mx R C δ) rs rs')
    (hpos : ∀ r ∈ rs, 0 ≤ r.w ∧ 0 ≤ r.h) (m q : BitMatrix) (hm : Built m)
    (hq : Built q) (hs : Spec.Client.Shows mn mx R C rs m) (hs' : Spec.Client.Shows mn mx R C rs' q)
    (hbig : 10000 * (rs.map (Spec.Client.rimCells mn mx R C δ)).sum ≤ (R : ℚ) * C)
    (canRead : List UInt8 → Bool) (disk : List UInt8 → Entry) (name : List UInt8) (hn : name ≠ []) (hr : canRead name = true)
    (hd : disk name = .holds m) : Matching canRead disk q name := by
  have h := (C71_similar_local mn mx R C hR hC hw hh δ rs rs' hcl hpos m q hm hq hs hs').1
  refine ⟨hn, hr, m, hd, hs.rows.trans hs'.rows.symm, hs.cols.trans hs'.cols.symm, ?_⟩
  rw [hs'.rows, hs'.cols]
  have : (diffCount m q * 10000 : ℚ) ≤ R * C := by linarith
  exact_mod_cast this

/-- **C74** … and one does not match if more than a ten thousandth of the cells have their centre in a rectangle of the one and are
not near any rectangle of the other. -/
theorem C74_different_not_found (mn mx : Coord) (R C : Nat) (rs rs' : List Spec.Msk.Rect) (m q : BitMatrix)
    (hs : Spec.Client.Shows mn mx R C rs m) (hs' : Spec.Client.Shows mn mx R C rs' q) (K : Finset (Nat × Nat))
    (hK : (∀ p ∈ K, OnlyInFirst mn mx R C rs rs' p) ∨ (∀ p ∈ K, OnlyInFirst mn mx R C rs' rs p))
    (hbig : R * C < K.card * 10000)
    (canRead : List UInt8 → Bool) (disk : List UInt8 → Entry) (name : List UInt8) (hd : disk name = .holds m) :
    ¬ Matching canRead disk q name := by
  rintro ⟨-, -, m', h1, h2, h3, h4⟩
  rw [hd] at h1
  cases h1
  have h : K.card ≤ diffCount m q := by
    rcases hK with hK | hK
    · exact C71_different mn mx R C rs rs' m q hs hs' K hK
    · rw [diffCount_symm m q h2 h3]
      exact C71_different mn mx R C rs' rs q m hs' hs K hK
  rw [hs'.rows, hs'.cols] at h4
  have := Nat.mul_le_mul_right 10000 h
  omega

open Classical in
/-- one stored bitmap and one query -/
theorem lookup_one (p : Platform) (hp : p.maskedShift = true) (m q old : BitMatrix) (hm : Storable p m) (h1 : 0 < m.isize)
    (h2 : 0 < m.jsize) (hq : Built q) (fs fs' : Fs) (name : List UInt8) (stored : Nat) (hn : name ≠ [])
    (hr : fs.readable name = true) (hst : ∀ h, encodeHash m = .ok h → h.length ≤ stored)
    (hf : flushFile m name stored fs = .ok true fs') :
    Client.lookup p fs' old q [name] =
      some (if m.isize = q.isize ∧ m.jsize = q.jsize ∧ diffCount m q * 10000 ≤ m.isize * m.jsize then [name] else []) := by
  unfold flushFile at hf
  rw [if_neg hn] at hf
  split at hf
  · cases hf
  cases he : encodeHash m with
  | ub => rw [he] at hf; cases hf
  | throw e => rw [he] at hf; cases hf
  | ok h =>
    rw [he] at hf
    dsimp only at hf
    have hfs : fs' = { fs with files := fun n => if n = name then some (h.take stored) else fs.files n } := by
      injection hf with _ hf; exact hf.symm
    subst hfs
    rw [List.take_of_length_le (hst h he)]
    obtain ⟨m', e', b', hs', hv⟩ := decode_storable p hp m hm (by omega) (by omega) h he
    have this : readFile p Alloc.ok { fs with files := fun n => if n = name then some h else fs.files n } name old = .ok true m' := by
      simp only [readFile, hn, hr, if_false, if_true, e', hv, Bool.true_eq_false, Bool.false_eq_true, assignMoveL]
    have hz1 : 0 < m'.isize := by rw [← b'.1]; omega
    have hz2 : 0 < m'.jsize := by rw [← b'.2.1]; omega
    unfold Client.lookup
    rw [this]
    dsimp only
    rw [opEq_any m' q hs'.built hq hz1 hz2 (by have := hs'.small; omega), ← diffCount_congr b', ← b'.1, ← b'.2.1]
    by_cases hM : m.isize = q.isize ∧ m.jsize = q.jsize ∧ diffCount m q * 10000 ≤ m.isize * m.jsize
    · rw [decide_eq_true hM, if_pos hM]; rfl
    · rw [decide_eq_false hM, if_neg hM]; rfl

/-! ### the hypotheses can be met -/

/-- Two 3×5 bitmaps are stored as "a" and "b", the second write is torn; the query is the first bitmap again.  "c" does not exist. -/
example : ∃ h x s, calls ⟨true, true⟩ ⟨fun _ => BitMatrix.new Alloc.ok 3 5, ⟨fun _ => none, fun _ => true, fun _ => true⟩⟩
      [.flush 0 [97] 0, .flush 1 [98] 7] = some (h, x) ∧
      Steps (fun _ => true) (fun _ => true) ⟨fun _ => BitMatrix.new Alloc.ok 3 5, fun _ => .absent⟩ h s ∧
      Client.lookup ⟨true, true⟩ x.fs (BitMatrix.new Alloc.ok 1 1) (BitMatrix.new Alloc.ok 3 5) [[98], [97], [99]] = some [[97]] := by
  obtain ⟨h, x, s, e, em, st, l⟩ := C74_lookup ⟨true, true⟩ rfl [.flush 0 [97] 0, .flush 1 [98] 7]
    (fun _ => BitMatrix.new Alloc.ok 3 5) ⟨fun _ => none, fun _ => true, fun _ => true⟩ (fun _ => rfl)
    (fun _ => ⟨.new 3 5 (by decide) (by decide), by decide, .inr ⟨by decide, by decide⟩⟩) (by simp)
  refine ⟨h, x, s, e, st, ?_⟩
  have hx : (calls ⟨true, true⟩ ⟨fun _ => BitMatrix.new Alloc.ok 3 5, ⟨fun _ => none, fun _ => true, fun _ => true⟩⟩
      [.flush 0 [97] 0, .flush 1 [98] 7]).map (fun y => Client.lookup ⟨true, true⟩ y.2.fs (BitMatrix.new Alloc.ok 1 1)
        (BitMatrix.new Alloc.ok 3 5) [[98], [97], [99]]) = some (some [[97]]) := by decide +kernel
  rw [e] at hx
  simpa using hx

end Verif.Props
