/-
What looking up poses in a stream of stamped transforms, and queueing point clouds, is meant to do.
-/
import Verif.Model.Transformer

namespace Vox.Spec

open Vox.Tf

/-- Something that happens to a transformer: a transform arrives, or the pose at a time is asked for. -/
inductive TfEvent (P : Type) where
  | transform (m : Stamped P)
  | ask (time : ℤ)

/-- The times asked for. -/
def asked {P : Type} : List (TfEvent P) → List ℤ
  | [] => []
  | .transform _ :: es => asked es
  | .ask t :: es => t :: asked es

/-- The answers of a transformer that forgets what it no longer needs. -/
def answers {P : Type} (A : Arith) (ops : PoseOps P) : Transformer P → List (TfEvent P) → List (Option P)
  | _, [] => []
  | tr, .transform m :: es => answers A ops (tr.receive m) es
  | tr, .ask t :: es => (tr.lookup A ops t).1 :: answers A ops (tr.lookup A ops t).2 es

/-- The answers if every transform ever received were remembered. -/
def fullAnswers {P : Type} (A : Arith) (ops : PoseOps P) : Transformer P → List (TfEvent P) → List (Option P)
  | _, [] => []
  | tr, .transform m :: es => fullAnswers A ops (tr.receive m) es
  | tr, .ask t :: es => (tr.lookup A ops t).1 :: fullAnswers A ops tr es

/-- The stamps never decrease. -/
def Sorted {P : Type} (q : List (Stamped P)) : Prop := q.Pairwise fun a b => a.stamp ≤ b.stamp

/-- The transform from the sensor frame that belongs to a transform of the dynamic frame. -/
def chained {P : Type} (ops : PoseOps P) (tr : Transformer P) (p : P) : P := ops.mul (ops.mul p (ops.inv tr.staticBD)) tr.staticBC

/-- Clouds at least (more than) an interval apart, beginning with those after a given time. -/
def Spaced (interval last : ℤ) (cs : List Cloud) : Prop := cs.IsChain (fun a b => interval < b.stamp - a.stamp) ∧ ∀ c ∈ cs.head?, interval < c.stamp - last

/-- The clouds of a sequence that arrive long enough after the previous one that was taken. -/
def taken (interval : ℤ) : ℤ → List Cloud → List Cloud
  | _, [] => []
  | last, c :: cs => if interval < c.stamp - last then c :: taken interval c.stamp cs else taken interval last cs

/-- Something that happens to a server: a transform or a cloud arrives. -/
inductive SrvEvent (P : Type) where
  | transform (m : Stamped P)
  | cloud (c : Cloud)

/-- The clouds among the events. -/
def clouds {P : Type} : List (SrvEvent P) → List Cloud
  | [] => []
  | .transform _ :: es => clouds es
  | .cloud c :: es => c :: clouds es

/-- What a server integrates, in order, and where it ends. -/
def serve {P : Type} (look : Transformer P → ℤ → Option P × Transformer P) :
    Inbox → Transformer P → List (SrvEvent P) → List (Cloud × P) × Inbox × Transformer P
  | b, tr, [] => ([], b, tr)
  | b, tr, .transform m :: es => serve look b (tr.receive m) es
  | b, tr, .cloud c :: es =>
    ((b.insert look tr c).1 ++ (serve look (b.insert look tr c).2.1 (b.insert look tr c).2.2 es).1,
      (serve look (b.insert look tr c).2.1 (b.insert look tr c).2.2 es).2)

/-- Looking up without forgetting anything. -/
def lookupKeeping {P : Type} (A : Arith) (ops : PoseOps P) (tr : Transformer P) (t : ℤ) : Option P × Transformer P := ((tr.lookup A ops t).1, tr)

end Vox.Spec
