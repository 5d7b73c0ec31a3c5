/-
Lemmas about the placement of points.
-/
import Verif.Spec.Placement
import Verif.Lemmas.Rigid
import Verif.Props.Transformer

namespace Vox.Placement

open Layer Spec Interp Merge Tf

theorem apply_mul (a b : Rigid) (x : Pt) : (mul a b).apply x = a.apply (b.apply x) := by
  simp only [mul, Rigid.apply, dot, Vec3.ext_iff]
  refine ⟨?_, ?_, ?_⟩ <;> ring

theorem apply_inv (a : Rigid) (x : Pt) : (inv a).apply x = a.unapply x := by
  obtain ⟨⟨a, b, c⟩, ⟨d, e, f⟩, ⟨g, i, j⟩, ⟨r, s, t⟩⟩ := a
  obtain ⟨x, y, z⟩ := x
  simp only [inv, Rigid.apply, Rigid.unapply, dot, Vec3.ext_iff]
  simp only [show ((⟨x, y, z⟩ : Pt) - ⟨r, s, t⟩) = ⟨x - r, y - s, z - t⟩ from rfl, show ((0 : Pt) - ⟨r, s, t⟩) = ⟨0 - r, 0 - s, 0 - t⟩ from rfl]
  refine ⟨?_, ?_, ?_⟩ <;> ring

theorem apply_id (x : Pt) : Rigid.id.apply x = x := by
  obtain ⟨x, y, z⟩ := x
  simp only [Rigid.id, Rigid.apply, dot, Vec3.ext_iff]
  simp only [show (0 : Pt) = ⟨0, 0, 0⟩ from rfl]
  refine ⟨?_, ?_, ?_⟩ <;> ring

theorem unapply_id (x : Pt) : Rigid.id.unapply x = x := by
  obtain ⟨x, y, z⟩ := x
  simp only [Rigid.id, Rigid.unapply, Vec3.ext_iff]
  simp only [show ((⟨x, y, z⟩ : Pt) - 0) = ⟨x - 0, y - 0, z - 0⟩ from rfl]
  refine ⟨?_, ?_, ?_⟩ <;> ring

theorem unapply_inv {T : Rigid} (h : Orthonormal T) (x : Pt) : (inv T).unapply x = T.apply x := by
  obtain ⟨⟨a, b, c⟩, ⟨d, e, f⟩, ⟨g, i, j⟩, ⟨r, s, t⟩⟩ := T
  obtain ⟨h1, h2, h3, h4, h5, h6⟩ := h
  obtain ⟨x, y, z⟩ := x
  simp only [dot] at h1 h2 h3 h4 h5 h6
  simp only [inv, Rigid.apply, Rigid.unapply, dot, Vec3.ext_iff]
  simp only [show ((0 : Pt) - ⟨r, s, t⟩) = ⟨0 - r, 0 - s, 0 - t⟩ from rfl]
  have e : ∀ u v w : ℚ, ((⟨x, y, z⟩ : Pt) - ⟨u, v, w⟩) = ⟨x - u, y - v, z - w⟩ := fun _ _ _ => rfl
  simp only [e]
  refine ⟨?_, ?_, ?_⟩
  · linear_combination r * h1 + s * h4 + t * h5
  · linear_combination r * h4 + s * h2 + t * h6
  · linear_combination r * h5 + s * h6 + t * h3

theorem value_takes {s : Static} (h : ∀ T, s.given = some T → Orthonormal T) (x : Pt) : Takes s x (s.value.apply x) := by
  unfold Takes Static.value
  cases hg : s.given with
  | none => exact apply_id x
  | some T =>
    cases s.inverted with
    | false => rfl
    | true =>
      show T.apply ((inv T).apply x) = x
      rw [apply_inv, RigidT.apply_unapply (h T hg)]

theorem value_takes_back {s : Static} (h : ∀ T, s.given = some T → Orthonormal T) (b : Pt) : Takes s ((inv s.value).apply b) b := by
  rw [apply_inv]
  unfold Takes Static.value
  cases hg : s.given with
  | none => exact (unapply_id b).symm
  | some T =>
    cases s.inverted with
    | false => exact (RigidT.apply_unapply (h T hg) b).symm
    | true => exact (unapply_inv (h T hg) b).symm

theorem chained_places {blend : Fl → Rigid → Rigid → Rigid} {p : Params} (h : StaticOk p) {tr : Transformer Rigid} (hbd : tr.staticBD = p.bd.value)
    (hbc : tr.staticBC = p.bc.value) (pose : Rigid) : Places p pose (chained (ops blend) tr pose) := by
  intro x
  refine ⟨p.bc.value.apply x, (inv p.bd.value).apply (p.bc.value.apply x), value_takes h.2 x, value_takes_back h.1 _, ?_⟩
  show (mul (mul pose (inv tr.staticBD)) tr.staticBC).apply x = _
  rw [apply_mul, apply_mul, hbd, hbc]

theorem takes_squareDist {s : Static} (h : ∀ T, s.given = some T → Orthonormal T) {x y b c : Pt} (h1 : Takes s x b) (h2 : Takes s y c) : squareDist b c = squareDist x y := by
  unfold Takes at h1 h2
  cases hg : s.given with
  | none =>
    rw [hg] at h1 h2
    dsimp only at h1 h2
    rw [h1, h2]
  | some T =>
    rw [hg] at h1 h2
    cases hi : s.inverted with
    | false =>
      rw [hi] at h1 h2
      dsimp only at h1 h2
      rw [h1, h2, RigidT.apply_squareDist (h T hg)]
    | true =>
      rw [hi] at h1 h2
      dsimp only at h1 h2
      rw [← h1, ← h2, RigidT.apply_squareDist (h T hg)]

theorem lookup_keeps (A : Arith) (blend : Fl → Rigid → Rigid → Rigid) (tr : Transformer Rigid) (time : ℤ) :
    (tr.lookup A (ops blend) time).2.tolerance = tr.tolerance ∧ (tr.lookup A (ops blend) time).2.staticBD = tr.staticBD ∧
    (tr.lookup A (ops blend) time).2.staticBC = tr.staticBC ∧ ∀ m ∈ (tr.lookup A (ops blend) time).2.queue, m ∈ tr.queue := by
  unfold Transformer.lookup
  cases hr : resolve A (ops blend) tr.tolerance time tr.queue with
  | none => exact ⟨rfl, rfl, rfl, fun m hm => hm⟩
  | some r =>
    obtain ⟨q, l⟩ := r
    refine ⟨rfl, rfl, rfl, fun m hm => ?_⟩
    dsimp only at hm
    unfold resolve at hr
    split_ifs at hr
    · split at hr
      · rename_i x xs hd
        obtain ⟨-, rfl⟩ := Prod.mk.inj (Option.some.inj hr)
        rw [← hd] at hm
        exact List.mem_of_mem_drop hm
      · cases hr
    · split at hr
      · rename_i a b xs hd
        obtain ⟨-, rfl⟩ := Prod.mk.inj (Option.some.inj hr)
        rw [← hd] at hm
        exact List.mem_of_mem_drop hm
      · cases hr

/-- The transformer after some events. -/
def after (A : Arith) (blend : Fl → Rigid → Rigid → Rigid) (tree : String → String → ℤ → TfAnswer) (p : Params) (tr : Transformer Rigid) (es : List PoseEvent) :
    Transformer Rigid :=
  es.foldl (fun tr e => match e with
    | .transform m => tr.receive m
    | .ask f t s => (lookup A blend tree p tr f t s).2) tr

theorem after_keeps (A : Arith) (blend : Fl → Rigid → Rigid → Rigid) (tree : String → String → ℤ → TfAnswer) {p : Params} : ∀ (es : List PoseEvent)
    (tr : Transformer Rigid), (after A blend tree p tr es).tolerance = tr.tolerance ∧ (after A blend tree p tr es).staticBD = tr.staticBD ∧
      (after A blend tree p tr es).staticBC = tr.staticBC ∧ ∀ m ∈ (after A blend tree p tr es).queue, m ∈ tr.queue ∨ m ∈ arrivals es
  | [], tr => ⟨rfl, rfl, rfl, fun m hm => Or.inl hm⟩
  | .transform m :: es, tr => by
    obtain ⟨h1, h2, h3, h4⟩ := after_keeps A blend tree (p := p) es (tr.receive m)
    refine ⟨h1, h2, h3, fun k hk => ?_⟩
    rcases h4 k hk with h | h
    · unfold Transformer.receive at h
      rcases List.mem_append.1 h with h | h
      · exact Or.inl h
      · right
        unfold arrivals
        rw [List.filterMap_cons]
        rw [List.mem_singleton.1 h]
        exact List.mem_cons_self
    · right
      unfold arrivals at h ⊢
      rw [List.filterMap_cons]
      exact List.mem_cons_of_mem _ h
  | .ask f t s :: es, tr => by
    obtain ⟨h1, h2, h3, h4⟩ := after_keeps A blend tree (p := p) es (lookup A blend tree p tr f t s).2
    have hk : (lookup A blend tree p tr f t s).2.tolerance = tr.tolerance ∧ (lookup A blend tree p tr f t s).2.staticBD = tr.staticBD ∧
        (lookup A blend tree p tr f t s).2.staticBC = tr.staticBC ∧ ∀ m ∈ (lookup A blend tree p tr f t s).2.queue, m ∈ tr.queue := by
      unfold lookup
      split_ifs
      · exact ⟨rfl, rfl, rfl, fun m hm => hm⟩
      · exact lookup_keeps A blend tr s
    refine ⟨h1.trans hk.1, h2.trans hk.2.1, h3.trans hk.2.2.1, fun m hm => ?_⟩
    rcases h4 m hm with h | h
    · exact Or.inl (hk.2.2.2 m h)
    · right
      unfold arrivals at h ⊢
      rw [List.filterMap_cons]
      exact h

end Vox.Placement
