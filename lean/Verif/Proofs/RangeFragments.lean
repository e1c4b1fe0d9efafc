import Verif.Proofs.RangeZond
import Verif.Model.GeneratorFragments

/-! Proofs for C82: the division of the work among fragments. -/

namespace Verif.Proofs.Range
open Verif Ieee Verif.Spec.Binary64 Generator

variable {rnd : ℚ → ℚ}

theorem nat_abs {k : ℕ} (h : k ≤ 2 ^ 64) : |((k : ℤ) : ℚ)| ≤ 2 ^ 64 := by
  rw [abs_of_nonneg (by positivity)]
  have : (k : ℚ) ≤ 2 ^ 64 := by exact_mod_cast h
  simpa using this

theorem edge_eq (hr : RoundsNormal rnd) {base : Int} (hb : inI32 base) {k : ℕ} (hk : k ≤ 2 ^ 64) {d : Fl} (hd : TameF 252 200 d) :
    edge rnd Fl.add base k d = edge rne Fl.add base k d ∧ edge rnd Fl.sub base k d = edge rne Fl.sub base k d := by
  obtain ⟨e1, t1⟩ := ofInt_eq hr (i32_abs hb) (by norm_num)
  obtain ⟨e2, t2⟩ := ofInt_eq hr (nat_abs hk) (by norm_num)
  obtain ⟨e3, t3⟩ := mul_eq hr t2 hd (by norm_num) (by norm_num)
  have t1' := t1.mono (Nat.zero_le (0 + 252)) (show 31 ≤ 64 + 200 by norm_num)
  obtain ⟨e4, _⟩ := add_eq hr t1' t3 (by norm_num) (by norm_num)
  obtain ⟨e5, _⟩ := sub_eq hr t1' t3 (by norm_num) (by norm_num)
  unfold edge
  rw [e1, e2, e3]
  exact ⟨congrArg Fl.toI32 e4, congrArg Fl.toI32 e5⟩

theorem mapM_eq {α β : Type} {f g : α → Res β} : ∀ (l : List α), (∀ x ∈ l, f x = g x) → l.mapM f = l.mapM g := by
  intro l
  induction l with
  | nil => intro _; rfl
  | cons a l ih =>
    intro h
    rw [List.mapM_cons, List.mapM_cons, h a List.mem_cons_self, ih fun x hx => h x (List.mem_cons_of_mem _ hx)]

theorem forFrags_eq {f g : Nat → Nat → Fragment → Res Fragment} (fs : V2 Fragment)
    (h : ∀ i j, i < fs.length → (∀ row ∈ fs, j < row.length → ∀ x, f i j x = g i j x)) : forFrags f fs = forFrags g fs := by
  unfold forFrags
  refine mapM_eq _ fun row hrow => ?_
  obtain ⟨r, i⟩ := row
  obtain ⟨h1, h2, h3⟩ := List.mem_zipIdx hrow
  refine mapM_eq _ fun x hx => ?_
  obtain ⟨x, j⟩ := x
  obtain ⟨h4, h5, h6⟩ := List.mem_zipIdx hx
  have hm : r ∈ fs := by rw [h3]; exact List.getElem_mem _
  exact h i j (by omega) r hm (by simpa using h5) x

theorem workspaces_eq (hr : RoundsNormal rnd) {g : Generator} (hx : TameF 252 200 g.dx) (hy : TameF 252 200 g.dy)
    (h1 : inI32 g.ws.leftTop.x) (h2 : inI32 g.ws.leftTop.y) (hn : g.frags.length < 2 ^ 64) (hn' : ∀ row ∈ g.frags, row.length < 2 ^ 64) :
    initFragmentsWorkspaces rnd g = initFragmentsWorkspaces rne g := by
  unfold initFragmentsWorkspaces
  congr 1
  refine forFrags_eq _ fun i j hi row hrow hj x => ?_
  have := hn' row hrow
  rw [(edge_eq hr h1 (k := j) (by omega) hx).1, (edge_eq hr h2 (k := i) (by omega) hy).2,
    (edge_eq hr h1 (k := j + 1) (by omega) hx).1, (edge_eq hr h2 (k := i + 1) (by omega) hy).2]

theorem quotient_eq (hr : RoundsNormal rnd) {t : Int} (ht : inI32 t) {d : Fl} (hd : TameF 252 200 d) : quotient rnd t d = quotient rne t d := by
  obtain ⟨e1, t1⟩ := ofInt_eq hr (i32_abs ht) (by norm_num)
  obtain ⟨e2, _⟩ := div_eq hr t1 hd (by norm_num) (by norm_num)
  unfold quotient
  rw [e1, e2]

theorem bind_eq {α β : Type} {x : Res α} {f g : α → Res β} (h : ∀ a, x = .ok a → f a = g a) : x >>= f = x >>= g := by
  cases x with
  | ub => rfl
  | throw e => rfl
  | ok a => exact h a rfl

theorem sub32_fits {a b v : Int} (h : sub32 a b = .ok v) : inI32 v := by
  rcases sub32_cases a b with h' | ⟨t, h', i⟩
  · rw [h] at h'; cases h'
  · rw [h] at h'; cases h'; exact i

theorem rectFragments_eq (hr : RoundsNormal rnd) {g : Generator} (hx : TameF 252 200 g.dx) (hy : TameF 252 200 g.dy) (r : Geometry) :
    rectFragments rnd g r = rectFragments rne g r := by
  have s : ∀ t d, inI32 t → TameF 252 200 d → startIdx rnd t d = startIdx rne t d := fun t d ht hd => by
    unfold startIdx; rw [quotient_eq hr ht hd]
  have c : ∀ n t, inI32 t → endCol rnd g n t = endCol rne g n t := fun n t ht => by
    unfold endCol; rw [quotient_eq hr ht hx]
  have e : ∀ n t, inI32 t → endRow rnd g n t = endRow rne g n t := fun n t ht => by
    unfold endRow; rw [quotient_eq hr ht hy]
  unfold rectFragments
  refine bind_eq fun lt _ => bind_eq fun rb _ => bind_eq fun fc _ => bind_eq fun t1 h1 => ?_
  rw [s t1 _ (sub32_fits h1) hx]
  refine bind_eq fun _ _ => bind_eq fun t2 h2 => ?_
  rw [c fc t2 (sub32_fits h2)]
  refine bind_eq fun _ _ => bind_eq fun t3 h3 => ?_
  rw [s t3 _ (sub32_fits h3) hy]
  refine bind_eq fun _ _ => bind_eq fun t4 h4 => ?_
  rw [e _ t4 (sub32_fits h4)]

end Verif.Proofs.Range
