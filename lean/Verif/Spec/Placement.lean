/-
Where the points of a cloud have to be placed.
-/
import Verif.Model.Placement
import Verif.Spec.Rigid

namespace Vox.Spec

open Layer Interp Merge Tf Placement

/-- `b` is where a static transform takes `x`; if it is given the other way round, where it takes `b` is `x`. -/
def Takes (s : Static) (x b : Pt) : Prop :=
  match s.given, s.inverted with
  | none, _ => b = x
  | some T, false => b = T.apply x
  | some T, true => T.apply b = x

/-- The transform places points of the sensor as the pose of the dynamic frame demands: a point has a position on the robot by one static transform, which by the other
one belongs to a position in the dynamic frame, and that is where the pose takes it. -/
def Places (p : Params) (pose T : Rigid) : Prop := ∀ x, ∃ b q, Takes p.bc x b ∧ Takes p.bd q b ∧ T.apply x = pose.apply q

/-- The static transforms are rigid. -/
def StaticOk (p : Params) : Prop := (∀ T, p.bd.given = some T → Orthonormal T) ∧ ∀ T, p.bc.given = some T → Orthonormal T

/-- What happens to a transformer: a transform message, or a question (source and target frame, time). -/
inductive PoseEvent where
  | transform (m : Stamped Rigid)
  | ask (fromFrame toFrame : String) (time : ℤ)

/-- The transforms received in some events. -/
def arrivals (es : List PoseEvent) : List (Stamped Rigid) :=
  es.filterMap fun
    | .transform m => some m
    | .ask _ _ _ => none

/-- The answer to a question after some events. -/
def answerAfter (A : Arith) (blend : Fl → Rigid → Rigid → Rigid) (tree : String → String → ℤ → TfAnswer) (p : Params) (es : List PoseEvent) (fromFrame toFrame : String)
    (time : ℤ) : Option Rigid :=
  (lookup A blend tree p (es.foldl (fun tr e => match e with
    | .transform m => tr.receive m
    | .ask f t s => (lookup A blend tree p tr f t s).2) (start p)) fromFrame toFrame time).1

end Vox.Spec
