/-
Voxel access by global index, the open queue, and the effect of one propagation step.
-/
import Verif.Model.Esdf
import Verif.Lemmas.EsdfMeasure
import Verif.Lemmas.GridWrite
import Verif.Lemmas.BucketQueue
import Mathlib.Tactic.Linarith

namespace Vox.Esdf

open Layer Grid Spec

/-! ### Voxel access -/

/-- The side is a power of two within the range of `int`. -/
def PowerSide {V : Type} (l : VLayer V) : Prop := ∃ k, k < 31 ∧ l.cfg.vps = 2 ^ k

theorem split_ok {V : Type} {l : VLayer V} (hp : PowerSide l) {g : Idx} (hg : g.All fun c => |c| ≤ 2 ^ 24) :
    splitGlobal l.cfg.vps g = .ok (blockOf l.cfg.vps g, localOf l.cfg.vps g) := by
  obtain ⟨k, hk, e⟩ := hp
  rw [e]
  exact splitGlobal_ok hk hg

theorem getVoxel_ok {V : Type} {l : VLayer V} (wf : WellFormed l) (hp : PowerSide l) {g : Idx} (hg : g.All fun c => |c| ≤ 2 ^ 24) :
    getVoxel l g = .ok (content l g) := by
  unfold getVoxel
  rw [split_ok hp hg]
  simp only [Outcome.bind_ok]
  cases hb : block? l (blockOf l.cfg.vps g) with
  | none =>
    rw [content_eq wf, hb]
    rfl
  | some b =>
    obtain ⟨x, h1, h2⟩ := voxelByIndex_content wf hb (localOf_inBlock wf.side_pos g)
    rw [globalIndex_split] at h2
    simp only [h1, Outcome.bind_ok, h2]
    rfl

theorem setVoxel_ok {V : Type} {l : VLayer V} (wf : WellFormed l) (hp : PowerSide l) {g : Idx} (hg : g.All fun c => |c| ≤ 2 ^ 24)
    (ha : (content l g).isSome = true) (x : V) :
    ∃ l', setVoxel l g x = .ok l' ∧ l'.cfg = l.cfg ∧ WellFormed l' ∧
      (∀ g', content l' g' = if g' = g then some x else content l g') ∧
      (∀ j, status l' j = status l j) ∧ l'.blocks.map (·.1) = l.blocks.map (·.1) := by
  unfold setVoxel
  rw [split_ok hp hg]
  simp only [Outcome.bind_ok]
  have hi : Allocated l (blockOf l.cfg.vps g) := by
    rw [content_isSome wf] at ha
    exact ha
  obtain ⟨l', h1, h2, h3, h4, h5, h6⟩ := writeVoxel_ok wf (localOf_inBlock wf.side_pos g) hi x
  rw [globalIndex_split] at h4
  exact ⟨l', h1, h2, h3, h4, h5, h6⟩

/-! ### The queue -/

section
open BQueue

variable {T : Type}

theorem push_ok {q : BQueue T} {n : ℕ} {mx : ℚ} {es : List (ℕ × T)} (r : Rel q ⟨n, mx, es⟩) (k : T) {v : ℚ}
    (hv : |v| * ((n : ℚ) - 1) / mx < 2 ^ 31) :
    ∃ q', q.push k v = .ok q' ∧ Rel q' ⟨n, mx, insertStable (bucketOf n mx v) k es⟩ := by
  obtain ⟨q', o, h1, h2, -⟩ := rel_step r (.push k v) hv
  simp only [BQueue.step, Outcome.bind_eq_ok, Outcome.pure_eq, Outcome.ok.injEq, Prod.mk.injEq] at h1
  obtain ⟨q'', h3, h4, -⟩ := h1
  exact ⟨q'', h3, h4 ▸ h2⟩

theorem front_pop_ok {q : BQueue T} {n : ℕ} {mx : ℚ} {e : ℕ × T} {es : List (ℕ × T)} (r : Rel q ⟨n, mx, e :: es⟩) :
    ∃ q1 q2, q.front = .ok (q1, e.2) ∧ q1.pop = .ok q2 ∧ Rel q2 ⟨n, mx, es⟩ := by
  obtain ⟨q1, o, h1, h2, h3⟩ := rel_step r .front (by simp [toSpecOp, PQOp.Allowed])
  simp only [BQueue.step, Outcome.bind_eq_ok, Outcome.pure_eq, Outcome.ok.injEq, Prod.mk.injEq] at h1
  obtain ⟨f, h4, h5, h6⟩ := h1
  obtain ⟨q2, o2, g1, g2, -⟩ := rel_step h2 .pop (by simp [toSpecOp, PQOp.Allowed])
  simp only [BQueue.step, Outcome.bind_eq_ok, Outcome.pure_eq, Outcome.ok.injEq, Prod.mk.injEq] at g1
  obtain ⟨q3, g4, g5, -⟩ := g1
  refine ⟨q1, q2, ?_, by rw [g4, g5], g2⟩
  rw [h4]
  subst h6
  obtain ⟨f1, f2⟩ := f
  simp only [toSpecOut, toSpecOp, PQ.step, PQOut.key.injEq] at h3
  rw [h3]
  simp only at h5
  rw [h5]

theorem empty_ok {q : BQueue T} {n : ℕ} {mx : ℚ} {es : List (ℕ × T)} (r : Rel q ⟨n, mx, es⟩) :
    q.empty = .ok es.isEmpty := by
  obtain ⟨q', o, h1, h2, h3⟩ := rel_step r .empty (by simp [toSpecOp, PQOp.Allowed])
  simp only [BQueue.step, Outcome.bind_eq_ok, Outcome.pure_eq, Outcome.ok.injEq, Prod.mk.injEq] at h1
  obtain ⟨b, h4, -, h5⟩ := h1
  rw [← h5] at h3
  simp only [toSpecOut, toSpecOp, PQ.step, PQOut.bool.injEq] at h3
  rw [h4, h3]

theorem mem_insertStable {b : ℕ} {k : T} {es : List (ℕ × T)} {e : ℕ × T} :
    e ∈ insertStable b k es ↔ e = (b, k) ∨ e ∈ es := by
  have : (insertStable b k es).Perm ((b, k) :: es) := by
    unfold insertStable
    refine List.perm_middle.trans ?_
    rw [List.takeWhile_append_dropWhile]
  rw [this.mem_iff, List.mem_cons]

theorem insertStable_perm (b : ℕ) (k : T) (es : List (ℕ × T)) :
    ((insertStable b k es).map (·.2)).Perm (k :: es.map (·.2)) := by
  have : (insertStable b k es).Perm ((b, k) :: es) := by
    unfold insertStable
    refine List.perm_middle.trans ?_
    rw [List.takeWhile_append_dropWhile]
  exact this.map (·.2)

end

/-! ### Rounding -/

/-- What is needed of the float arithmetic: rounding is monotone, odd, leaves its results unchanged, and its results
are multiples of some unit (for `float`: 2⁻¹⁴⁹). -/
structure Rounding (A : Flt) (u : ℚ) : Prop where
  mono : ∀ x y, x ≤ y → A.rnd x ≤ A.rnd y
  odd : ∀ x, A.rnd (-x) = -A.rnd x
  idem : ∀ x, A.rnd (A.rnd x) = A.rnd x
  unit_pos : 0 < u
  grid : ∀ x, ∃ k : ℤ, A.rnd x = k * u

/-- A value that is representable. -/
def Rep (A : Flt) (x : ℚ) : Prop := A.rnd x = x

theorem Rounding.zero {A : Flt} {u : ℚ} (R : Rounding A u) : A.rnd 0 = 0 := by
  have := R.odd 0
  rw [neg_zero] at this
  linarith

theorem Rounding.rep {A : Flt} {u : ℚ} (R : Rounding A u) (x : ℚ) : Rep A (A.rnd x) := R.idem x

theorem Rounding.rep_neg {A : Flt} {u : ℚ} (R : Rounding A u) {x : ℚ} (h : Rep A x) : Rep A (-x) := by
  unfold Rep at *
  rw [R.odd, h]

theorem Rounding.le_of_le {A : Flt} {u : ℚ} (R : Rounding A u) {x y : ℚ} (h : x ≤ y) (hy : Rep A y) : A.rnd x ≤ y := by
  have := R.mono _ _ h
  rwa [hy] at this

theorem Rounding.ge_of_ge {A : Flt} {u : ℚ} (R : Rounding A u) {x y : ℚ} (h : x ≤ y) (hx : Rep A x) : x ≤ A.rnd y := by
  have := R.mono _ _ h
  rwa [hx] at this

theorem Rounding.abs_le {A : Flt} {u : ℚ} (R : Rounding A u) {x y : ℚ} (h : |x| ≤ y) (hy : Rep A y) : |A.rnd x| ≤ y := by
  obtain ⟨h1, h2⟩ := _root_.abs_le.1 h
  exact _root_.abs_le.2 ⟨R.ge_of_ge h1 (R.rep_neg hy), R.le_of_le h2 hy⟩

theorem signum_pos {x : ℚ} (h : 0 < x) : signum x = 1 := by
  unfold signum
  rw [if_neg h.ne', if_neg (by linarith)]

theorem signum_neg {x : ℚ} (h : x < 0) : signum x = -1 := by
  unfold signum
  rw [if_neg h.ne, if_pos h]

theorem signum_zero : signum 0 = 0 := by simp [signum]

theorem signum_cases (x : ℚ) : (x < 0 ∧ signum x = -1) ∨ (x = 0 ∧ signum x = 0) ∨ (0 < x ∧ signum x = 1) := by
  rcases lt_trichotomy x 0 with h | h | h
  · exact Or.inl ⟨h, signum_neg h⟩
  · exact Or.inr (Or.inl ⟨h, by rw [h, signum_zero]⟩)
  · exact Or.inr (Or.inr ⟨h, signum_pos h⟩)

theorem abs_withSign_le (x : ℚ) {c : ℚ} (hc : 0 ≤ c) : |withSign x c| ≤ c := by
  unfold withSign
  rcases signum_cases x with ⟨-, e⟩ | ⟨-, e⟩ | ⟨-, e⟩ <;> rw [e] <;> simp [abs_of_nonneg hc, hc]

theorem rep_withSign {A : Flt} {u : ℚ} (R : Rounding A u) (x : ℚ) {c : ℚ} (hc : Rep A c) : Rep A (withSign x c) := by
  unfold withSign
  rcases signum_cases x with ⟨-, e⟩ | ⟨-, e⟩ | ⟨-, e⟩ <;> rw [e]
  · simpa using R.rep_neg hc
  · simpa [Rep] using R.zero
  · simpa using hc

/-- Every update of a neighbour lowers its magnitude or leaves it below that of the propagating voxel. -/
theorem relaxDistance_lower {A : Flt} {u : ℚ} (R : Rounding A u) {cfg : Config} (hm : 0 ≤ cfg.minDiff) {v n d x : ℚ}
    (hv : Rep A v) (hd : Rep A d) (hd0 : 0 ≤ d) (h : relaxDistance A cfg v n d = some x) :
    Rep A x ∧ (|x| < |n| ∨ |x| < |v|) := by
  unfold relaxDistance at h
  by_cases c1 : 0 < v ∧ 0 < n
  · rw [if_pos c1] at h
    split_ifs at h with c2
    have e : A.rnd (v + d) = x := by simpa using h
    refine ⟨e ▸ R.rep _, Or.inl ?_⟩
    have h1 : x ≤ A.rnd (x + cfg.minDiff) := R.ge_of_ge (by linarith) (e ▸ R.rep _)
    have h2 : v ≤ x := e ▸ R.ge_of_ge (by linarith) hv
    rw [e] at c2
    rw [abs_of_pos (by linarith), abs_of_pos c1.2]
    linarith
  rw [if_neg c1] at h
  by_cases c3 : v ≤ 0 ∧ n ≤ 0
  · rw [if_pos c3] at h
    split_ifs at h with c2
    have e : A.rnd (v - d) = x := by simpa using h
    refine ⟨e ▸ R.rep _, Or.inl ?_⟩
    have h1 : A.rnd (x - cfg.minDiff) ≤ x := R.le_of_le (by linarith) (e ▸ R.rep _)
    have h2 : x ≤ v := e ▸ R.le_of_le (by linarith) hv
    rw [e] at c2
    rw [abs_of_nonpos (by linarith), abs_of_nonpos c3.2]
    linarith
  rw [if_neg c3] at h
  simp only at h
  split_ifs at h with c4 c5
  · have e : A.rnd (v - withSign v d) = x := by simpa using h
    rw [e] at c4 c5
    refine ⟨e ▸ R.rep _, Or.inl ?_⟩
    by_contra hlt
    rw [not_lt] at hlt
    -- the potential is within `d` of zero on the side of the neighbour
    have hx : |x| ≤ d ∧ (0 < n → x ≤ d) := by
      rcases lt_trichotomy v 0 with hv0 | hv0 | hv0
      · have hn : 0 < n := by
          by_contra hn
          exact c3 ⟨hv0.le, not_lt.1 hn⟩
        have s : signum x = 1 := by
          rcases signum_cases x with ⟨h6, e6⟩ | ⟨h6, e6⟩ | ⟨h6, e6⟩
          · rw [e6] at c5; norm_num at c5; linarith
          · rw [e6] at c5; norm_num at c5; linarith
          · exact e6
        have hx0 : 0 < x := by
          rcases signum_cases x with ⟨h6, e6⟩ | ⟨h6, e6⟩ | ⟨h6, e6⟩
          · rw [e6] at s; omega
          · rw [e6] at s; omega
          · exact h6
        have : x ≤ d := by
          rw [← e]
          refine R.le_of_le ?_ hd
          simp only [withSign, signum_neg hv0]
          push_cast
          linarith
        exact ⟨by rw [abs_of_pos hx0]; exact this, fun _ => this⟩
      · have : x = 0 := by
          rw [← e, hv0]
          simp [withSign, signum_zero, R.zero]
        rw [this]
        exact ⟨by simpa using hd0, fun _ => hd0⟩
      · have hn : n ≤ 0 := by
          by_contra hn
          exact c1 ⟨hv0, not_le.1 hn⟩
        have : -d ≤ x := by
          rw [← e]
          refine R.ge_of_ge ?_ (R.rep_neg hd)
          simp only [withSign, signum_pos hv0]
          push_cast
          linarith
        have hx0 : x ≤ 0 := by
          rcases signum_cases x with ⟨h6, e6⟩ | ⟨h6, e6⟩ | ⟨h6, e6⟩
          · exact h6.le
          · exact h6.le
          · rw [e6] at c5; norm_num at c5; linarith
        exact ⟨by rw [abs_of_nonpos hx0]; linarith, fun h => absurd h (by linarith)⟩
    -- the difference is then at most `d`
    have hxn : |x - n| ≤ d := by
      rcases signum_cases x with ⟨h6, e6⟩ | ⟨h6, e6⟩ | ⟨h6, e6⟩
      · rw [e6] at c5
        push_cast at c5
        rw [← c5, abs_of_neg (by norm_num : (-1 : ℚ) < 0), abs_of_neg h6] at hlt
        have := hx.1
        rw [abs_of_neg h6] at this
        rw [← c5]
        exact _root_.abs_le.2 ⟨by linarith, by linarith⟩
      · rw [e6] at c5
        push_cast at c5
        rw [← c5, h6]
        simpa using hd0
      · rw [e6] at c5
        push_cast at c5
        rw [← c5, abs_of_pos (by norm_num : (0 : ℚ) < 1), abs_of_pos h6] at hlt
        have := hx.1
        rw [abs_of_pos h6] at this
        rw [← c5]
        exact _root_.abs_le.2 ⟨by linarith, by linarith⟩
    have := R.abs_le hxn hd
    linarith
  · have e : withSign n d = x := by simpa using h
    refine ⟨e ▸ rep_withSign R n hd, ?_⟩
    by_contra hlt
    rw [not_or, not_lt, not_lt] at hlt
    obtain ⟨hn, hv'⟩ := hlt
    rw [← e] at hn hv'
    have hle := abs_withSign_le n hd0
    have hnd : |n| ≤ d := hn.trans hle
    have hvd : |v| ≤ d := hv'.trans hle
    have hp : |A.rnd (v - withSign v d) - n| ≤ d := by
      rcases lt_trichotomy v 0 with hv0 | hv0 | hv0
      · have hn0 : 0 < n := by
          by_contra hn
          exact c3 ⟨hv0.le, not_lt.1 hn⟩
        have e1 : v - withSign v d = v + d := by
          simp only [withSign, signum_neg hv0]
          push_cast
          ring
        rw [abs_of_neg hv0] at hvd
        have p1 : A.rnd (v - withSign v d) ≤ d := R.le_of_le (by rw [e1]; linarith) hd
        have p2 : 0 ≤ A.rnd (v - withSign v d) := R.ge_of_ge (by rw [e1]; linarith) R.zero
        rw [abs_of_pos hn0] at hnd
        exact _root_.abs_le.2 ⟨by linarith, by linarith⟩
      · have : A.rnd (v - withSign v d) = 0 := by
          rw [hv0]
          simp [withSign, signum_zero, R.zero]
        rw [this, zero_sub, abs_neg]
        exact hnd
      · have hn0 : n ≤ 0 := by
          by_contra hn
          exact c1 ⟨hv0, not_le.1 hn⟩
        have e1 : v - withSign v d = v - d := by
          simp only [withSign, signum_pos hv0]
          push_cast
          ring
        rw [abs_of_pos hv0] at hvd
        have p1 : -d ≤ A.rnd (v - withSign v d) := R.ge_of_ge (by rw [e1]; linarith) (R.rep_neg hd)
        have p2 : A.rnd (v - withSign v d) ≤ 0 := R.le_of_le (by rw [e1]; linarith) R.zero
        rw [abs_of_nonpos hn0] at hnd
        exact _root_.abs_le.2 ⟨by linarith, by linarith⟩
    have := R.abs_le hp hd
    linarith

end Vox.Esdf
