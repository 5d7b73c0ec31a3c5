/-
Views of a simulated world.
-/
import Verif.Spec.SimCloud
import Verif.Lemmas.Objects
import Verif.Lemmas.Camera

namespace Vox.Sim

open Spec Geo

variable {F : Type} [Field F] [LinearOrder F]

theorem tdiv_half (m : ℤ) (h : 0 ≤ m) : m.tdiv 2 = m / 2 ∧ (-m).tdiv 2 = -(m / 2) := by
  rw [Int.neg_tdiv, Int.tdiv_eq_ediv_of_nonneg h]
  exact ⟨rfl, rfl⟩

theorem pixels_even (a : ℕ) : pixels (2 * a) = (List.range (2 * a)).map fun (k : ℕ) => (k : ℤ) - a := by
  have h1 : ((-(2 * (a : ℤ))).tdiv 2) = -a := by rw [(tdiv_half _ (by omega)).2]; omega
  have h2 : ((2 * (a : ℤ)).tdiv 2) = a := by rw [(tdiv_half _ (by omega)).1]; omega
  unfold pixels
  simp only [h1, h2]
  rw [show ((a : ℤ) - -a).toNat = 2 * a by omega]
  exact List.map_congr_left fun k _ => by ring

theorem pixels_odd (a : ℕ) : pixels (2 * a + 1) = pixels (2 * a) := by
  have h1 : ((-(2 * (a : ℤ))).tdiv 2) = -a := by rw [(tdiv_half _ (by omega)).2]; omega
  have h2 : ((2 * (a : ℤ)).tdiv 2) = a := by rw [(tdiv_half _ (by omega)).1]; omega
  have h3 : ((-(2 * (a : ℤ) + 1)).tdiv 2) = -a := by rw [(tdiv_half _ (by omega)).2]; omega
  have h4 : ((2 * (a : ℤ) + 1).tdiv 2) = a := by rw [(tdiv_half _ (by omega)).1]; omega
  unfold pixels
  simp only [h1, h2, h3, h4]

theorem pixelPairs_even (a b : ℕ) : pixelPairs (2 * a) (2 * b) = imagePixels a b := by
  unfold pixelPairs imagePixels
  rw [pixels_even, pixels_even, List.flatMap_map]
  simp only [List.map_map]
  rfl

/-- The state of the loop over objects as an option. -/
def Best.seen (b : Best F) : Option (Vec3 F × F × Color) :=
  if b.valid then match b.point, b.dist with
    | some p, some d => some (p, d, b.color)
    | _, _ => none
  else none

theorem cast_append (w w' : List (Target F)) (o d : Vec3 F) (M : F) :
    cast (w ++ w') o d M = w'.foldl (castStep o d M) (cast w o d M) := by
  unfold cast; rw [List.foldl_append]

theorem cast_nearest (w : List (Target F)) (origin dir : Vec3 F) (M : F) (hn : ∀ o ∈ w, o.ray origin dir M ≠ .nan) :
    (cast w origin dir M).point.isSome = true ∧ (cast w origin dir M).dist.isSome = true ∧
    Nearest w origin dir M (cast w origin dir M).seen := by
  induction w using List.reverseRecOn with
  | nil => exact ⟨rfl, rfl, by simp [cast, Best.seen, Nearest]⟩
  | append_singleton w x ih =>
    obtain ⟨ip, id, ih⟩ := ih fun o ho => hn o (List.mem_append_left _ ho)
    obtain ⟨p, hp⟩ := Option.isSome_iff_exists.1 ip
    obtain ⟨d, hd⟩ := Option.isSome_iff_exists.1 id
    rw [cast_append]
    simp only [List.foldl_cons, List.foldl_nil]
    generalize cast w origin dir M = b at *
    obtain ⟨valid, dist, point, color⟩ := b
    simp only at hp hd
    subst hp hd
    have hx := hn x (List.mem_append_right _ (List.mem_singleton_self _))
    unfold castStep
    cases hr : x.ray origin dir M with
    | nan => exact absurd hr hx
    | miss =>
      refine ⟨rfl, rfl, ?_⟩
      cases valid with
      | false =>
        simp only [Best.seen, Bool.false_eq_true, if_false, Nearest] at ih ⊢
        intro o ho
        rcases List.mem_append.1 ho with ho | ho
        · exact ih o ho
        · rw [List.mem_singleton.1 ho]; exact hr
      | true =>
        simp only [Best.seen, if_true, Nearest] at ih ⊢
        obtain ⟨before, o, after, e, h1, h2, h3, h4⟩ := ih
        refine ⟨before, o, after ++ [x], by rw [e]; simp, h1, h2, h3, ?_⟩
        intro q hq p' d' h
        rcases List.mem_append.1 hq with hq | hq
        · exact h4 q hq p' d' h
        · rw [List.mem_singleton.1 hq, hr] at h; cases h
    | hit p' d' =>
      cases valid with
      | false =>
        simp only [Best.seen, Bool.false_eq_true, if_false, Nearest, Best.improvedBy, Bool.not_false, Bool.true_or, if_true] at ih ⊢
        refine ⟨rfl, rfl, w, x, [], rfl, hr, rfl, ?_, by simp⟩
        intro q hq p'' d'' h
        rw [ih q hq] at h; cases h
      | true =>
        simp only [Best.seen, if_true, Nearest] at ih
        obtain ⟨before, o, after, e, h1, h2, h3, h4⟩ := ih
        simp only [Best.improvedBy, Bool.not_true, Bool.false_or, decide_eq_true_eq]
        split_ifs with hlt
        · refine ⟨rfl, rfl, ?_⟩
          simp only [Best.seen, if_true, Nearest]
          refine ⟨w, x, [], rfl, hr, rfl, ?_, by simp⟩
          intro q hq p'' d'' h
          rw [e] at hq
          rcases List.mem_append.1 hq with hq | hq
          · exact hlt.trans (h3 q hq p'' d'' h)
          · rcases List.mem_cons.1 hq with rfl | hq
            · rw [h1] at h
              obtain ⟨rfl, rfl⟩ := Ray.hit.inj h
              exact hlt
            · exact hlt.trans_le (h4 q hq p'' d'' h)
        · refine ⟨rfl, rfl, ?_⟩
          simp only [Best.seen, if_true, Nearest]
          refine ⟨before, o, after ++ [x], by rw [e]; simp, h1, h2, h3, ?_⟩
          intro q hq p'' d'' h
          rcases List.mem_append.1 hq with hq | hq
          · exact h4 q hq p'' d'' h
          · rw [List.mem_singleton.1 hq, hr] at h
            obtain ⟨rfl, rfl⟩ := Ray.hit.inj h
            exact not_lt.1 hlt

omit [Field F] [LinearOrder F] in
theorem push_seen (c : List (Vec3 F) × List Color) (b : Best F) (hp : b.point.isSome = true) (hd : b.dist.isSome = true) :
    push c b = (c.1 ++ b.seen.toList.map (·.1), c.2 ++ b.seen.toList.map (·.2.2)) := by
  obtain ⟨valid, dist, point, color⟩ := b
  obtain ⟨p, ep⟩ := Option.isSome_iff_exists.1 hp
  obtain ⟨d, ed⟩ := Option.isSome_iff_exists.1 hd
  simp only at ep ed
  subst ep ed
  cases valid <;> simp [push, Best.seen]

theorem pushNoisy_seen (noise : ℕ → F) (o dir : Vec3 F) (c : Noisy F) (b : Best F) (hp : b.point.isSome = true) (hd : b.dist.isSome = true) :
    pushNoisy noise o dir c b = ⟨c.points ++ b.seen.toList.map (fun h => rayPoint o dir (max 0 (h.2.1 + noise c.drawn))),
      c.colors ++ b.seen.toList.map (·.2.2), c.drawn + b.seen.toList.length⟩ := by
  obtain ⟨valid, dist, point, color⟩ := b
  obtain ⟨p, ep⟩ := Option.isSome_iff_exists.1 hp
  obtain ⟨d, ed⟩ := Option.isSome_iff_exists.1 hd
  simp only at ep ed
  subst ep ed
  cases valid
  · simp [pushNoisy, Best.seen]
  · have e : (if d + noise c.drawn < 0 then 0 else d + noise c.drawn) = max 0 (d + noise c.drawn) := by
      split_ifs with h
      · rw [max_eq_left h.le]
      · rw [max_eq_right (not_lt.1 h)]
    simp only [pushNoisy, Best.seen, if_true, e, Option.toList_some, List.map_cons, List.map_nil, List.length_singleton]
    rfl

omit [Field F] [LinearOrder F] in
theorem cloud_fold {α : Type} (cs : α → Best F) (xs : List α) (h : ∀ x ∈ xs, (cs x).point.isSome = true ∧ (cs x).dist.isSome = true) :
    ∀ c : List (Vec3 F) × List Color, xs.foldl (fun c x => push c (cs x)) c =
      (c.1 ++ (xs.filterMap fun x => (cs x).seen).map (·.1), c.2 ++ (xs.filterMap fun x => (cs x).seen).map (·.2.2)) := by
  induction xs with
  | nil => intro c; simp
  | cons x xs ih =>
    intro c
    obtain ⟨h1, h2⟩ := h x (List.mem_cons_self ..)
    rw [List.foldl_cons, ih (fun y hy => h y (List.mem_cons_of_mem _ hy)), push_seen c _ h1 h2]
    cases hs : (cs x).seen with
    | none => simp [hs]
    | some y => simp [hs, List.append_assoc]

theorem noisy_fold {α : Type} (noise : ℕ → F) (o : Vec3 F) (dirs : α → Vec3 F) (cs : α → Best F) (xs : List α)
    (h : ∀ x ∈ xs, (cs x).point.isSome = true ∧ (cs x).dist.isSome = true) :
    ∀ c : Noisy F, xs.foldl (fun c x => pushNoisy noise o (dirs x) c (cs x)) c =
      let hits := xs.filterMap fun x => (cs x).seen.map fun r => (dirs x, r)
      ⟨c.points ++ hits.mapIdx (fun k r => rayPoint o r.1 (max 0 (r.2.2.1 + noise (c.drawn + k)))),
        c.colors ++ hits.map (·.2.2.2), c.drawn + hits.length⟩ := by
  induction xs with
  | nil => intro c; simp
  | cons x xs ih =>
    intro c
    obtain ⟨h1, h2⟩ := h x (List.mem_cons_self ..)
    rw [List.foldl_cons, ih (fun y hy => h y (List.mem_cons_of_mem _ hy)), pushNoisy_seen noise o (dirs x) c _ h1 h2]
    cases hs : (cs x).seen with
    | none => simp [hs]
    | some y =>
      simp only [hs, Option.toList_some, List.map_cons, List.map_nil, List.filterMap_cons, Option.map_some,
        List.mapIdx_cons, List.append_assoc, List.singleton_append, List.length_cons, Nat.add_zero]
      congr 1
      · congr 3
        funext k r
        rw [Nat.add_assoc, List.length_nil, Nat.zero_add, Nat.add_comm 1 k]
      · rw [List.length_nil]; omega

section
variable [IsStrictOrderedRing F]

theorem rotate_length {R : Pose F} (hR : IsRotation R) (x y z : F) :
    (R.rotate ⟨x, y, z⟩).x ^ 2 + (R.rotate ⟨x, y, z⟩).y ^ 2 + (R.rotate ⟨x, y, z⟩).z ^ 2 = x ^ 2 + y ^ 2 + z ^ 2 := by
  obtain ⟨n0, n1, n2, o01, o02, o12, -⟩ := Camera.rotation_inverse hR
  simp only [Pose.inverse, Pose.cols] at n0 n1 n2 o01 o02 o12
  simp only [Pose.rotate, dot]
  linear_combination x ^ 2 * n0 + y ^ 2 * n1 + z ^ 2 * n2 + 2 * x * y * o01 + 2 * x * z * o02 + 2 * y * z * o12

/-- The rays of the pixels. -/
theorem pixelDirection_ray {sqrt : F → F} (hs : IsSqrt sqrt) {R : Pose F} (hR : IsRotation R) {t : F} {a : ℕ} (ha : 0 < a) (u v : ℤ) :
    IsPixelRay R t a u v (pixelDirection sqrt R (focalLength (2 * a) t) u v) := by
  have ha' : (a : F) ≠ 0 := by exact_mod_cast ha.ne'
  have e : ∀ u : ℤ, (u : F) / focalLength (2 * a) t = t * (u / a) := by
    intro u
    unfold focalLength
    push_cast
    rcases eq_or_ne t 0 with h | h
    · subst h; simp
    · field_simp
  unfold pixelDirection normalized
  simp only [e]
  set p := t * ((u : F) / a)
  set q := t * ((v : F) / a)
  have hz : 0 < sqNorm (⟨1, p, q⟩ : Vec3 F) := by
    unfold sqNorm dot
    have := mul_self_nonneg p
    have := mul_self_nonneg q
    simp only
    linarith
  obtain ⟨r0, r1⟩ := hs _ hz.le
  set r := sqrt (sqNorm (⟨1, p, q⟩ : Vec3 F))
  have r2 : 0 < r := lt_of_le_of_ne r0 fun h => by rw [← h, mul_zero] at r1; exact absurd r1 hz.ne
  rw [if_pos hz]
  have hk : (⟨1 / r, p / r, q / r⟩ : Vec3 F) = ⟨1 / r, 1 / r * p, 1 / r * q⟩ := by
    ext <;> simp only <;> ring
  rw [hk]
  refine ⟨?_, 1 / r, by positivity, rfl⟩
  have r3 : r * r = 1 + p ^ 2 + q ^ 2 := by rw [r1]; unfold sqNorm dot; ring
  have hu : (1 / r) ^ 2 * (1 + p ^ 2 + q ^ 2) = 1 := by rw [← r3]; field_simp
  have hu' : (1 / r) ^ 2 + (1 / r * p) ^ 2 + (1 / r * q) ^ 2 = 1 := by linear_combination hu
  rw [← rotate_length hR] at hu'
  exact hu'

end

end Vox.Sim
