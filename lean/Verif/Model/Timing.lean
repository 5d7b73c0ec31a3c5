/-
Timers: voxblox/include/voxblox/utils/timing.h and voxblox/src/utils/timing.cc.
-/
import Verif.Model.Ieee

namespace Vox.Timing

/-- The largest `double`, `std::numeric_limits<T>::max()`, voxblox/include/voxblox/utils/timing.h:47. -/
def dblMax : ℚ := ((2 ^ 53 - 1 : ℕ) : ℚ) * ((2 ^ 971 : ℕ) : ℚ)

/-- The smallest positive normal `double`, `std::numeric_limits<T>::min()`, voxblox/include/voxblox/utils/timing.h:48. -/
def dblMin : ℚ := 1 / ((2 ^ 1022 : ℕ) : ℚ)

/-- voxblox/include/voxblox/utils/timing.h:96-103, the data of `Accumulator`; `samples` are the cells written so far. The counters are `int`
and never negative. -/
structure Acc where
  windowSamples : ℕ
  totalSamples : ℕ
  windowSum : Fl
  sum : Fl
  min : Fl
  max : Fl
  samples : List Fl
deriving DecidableEq

/-- voxblox/include/voxblox/utils/timing.h:42-48, the constructor. -/
def Acc.new : Acc := ⟨0, 0, .fin 0, .fin 0, .fin dblMax, .fin dblMin, []⟩

/-- The window after a new sample and the change of its sum, voxblox/include/voxblox/utils/timing.h:51-58. -/
def Acc.window (A : Arith) (n : ℕ) (a : Acc) (s : Fl) : List Fl × Fl :=
  if a.windowSamples < n then (a.samples ++ [s], A.add a.windowSum s)
  else (a.samples.set (a.windowSamples % n) s, A.add a.windowSum (A.sub s (a.samples.getD (a.windowSamples % n) .nan)))

/-- voxblox/include/voxblox/utils/timing.h:50-67 `Add`: `n` cells in the window; the counters are `int`, overflow is undefined. -/
def Acc.add (A : Arith) (n : ℕ) (a : Acc) (s : Fl) : Outcome Acc :=
  if a.windowSamples + 1 < 2 ^ 31 ∧ a.totalSamples + 1 < 2 ^ 31 then
    .ok ⟨a.windowSamples + 1, a.totalSamples + 1, (a.window A n s).2, A.add a.sum s, if Fl.lt s a.min then s else a.min,
      if Fl.lt a.max s then s else a.max, (a.window A n s).1⟩
  else .ub

/-- voxblox/include/voxblox/utils/timing.h:73 `Mean`. -/
def Acc.mean (A : Arith) (a : Acc) : Fl := A.div a.sum (.fin a.totalSamples)

/-- voxblox/include/voxblox/utils/timing.h:75-77 `RollingMean`. -/
def Acc.rollingMean (A : Arith) (n : ℕ) (a : Acc) : Fl := A.div a.windowSum (.fin (Min.min a.windowSamples n : ℕ))

/-- voxblox/include/voxblox/utils/timing.h:83-94 `LazyVariance`. -/
def Acc.lazyVariance (A : Arith) (n : ℕ) (a : Acc) : Fl :=
  if a.windowSamples = 0 then .fin 0
  else A.div (a.samples.foldl (fun var s => A.add var (A.mul (A.sub s (a.rollingMean A n)) (A.sub s (a.rollingMean A n)))) (.fin 0))
    (.fin (Min.min a.windowSamples n : ℕ))

/-- The window of a timer, voxblox/include/voxblox/utils/timing.h:110. -/
def kWindow : ℕ := 50

/-! ### The registry -/

/-- voxblox/include/voxblox/utils/timing.h:188-193. The map is a list of its entries; its order is not modelled. -/
structure Registry where
  timers : List Acc
  tags : List (String × ℕ)
  maxTagLength : ℕ
deriving DecidableEq

/-- voxblox/src/utils/timing.cc:42. -/
def Registry.new : Registry := ⟨[], [], 0⟩

/-- voxblox/src/utils/timing.cc:47-63 `GetHandle`. -/
def Registry.getHandle (r : Registry) (tag : String) : ℕ × Registry :=
  match r.tags.lookup tag with
  | some h => (h, r)
  | none => (r.timers.length, ⟨r.timers ++ [Acc.new], (tag, r.timers.length) :: r.tags, Max.max r.maxTagLength tag.utf8ByteSize⟩)

/-- voxblox/src/utils/timing.cc:65-76 `GetTag`. -/
def Registry.getTag (r : Registry) (h : ℕ) : String :=
  match r.tags.find? fun e => e.2 = h with
  | some e => e.1
  | none => ""

/-- A timer by its handle: `operator[]` without a check, voxblox/src/utils/timing.cc:115, :120. -/
def Registry.timer (r : Registry) (h : ℕ) : Outcome Acc :=
  match r.timers[h]? with
  | some a => .ok a
  | none => .ub

/-- voxblox/src/utils/timing.cc:113-116 `AddTime`. -/
def Registry.addTime (A : Arith) (r : Registry) (h : ℕ) (s : Fl) : Outcome Registry := do
  let a ← r.timer h
  let a ← a.add A kWindow s
  pure { r with timers := r.timers.set h a }

/-- voxblox/src/utils/timing.cc:118-121 `GetTotalSeconds`. -/
def Registry.totalSeconds (r : Registry) (h : ℕ) : Outcome Fl := do
  let a ← r.timer h
  pure a.sum

/-- voxblox/src/utils/timing.cc:125-128 `GetMeanSeconds`. -/
def Registry.meanSeconds (A : Arith) (r : Registry) (h : ℕ) : Outcome Fl := do
  let a ← r.timer h
  pure (a.mean A)

/-- voxblox/src/utils/timing.cc:132-134 `GetNumSamples`. -/
def Registry.numSamples (r : Registry) (h : ℕ) : Outcome ℕ := do
  let a ← r.timer h
  pure a.totalSamples

/-- voxblox/src/utils/timing.cc:138-141 `GetVarianceSeconds`. -/
def Registry.varianceSeconds (A : Arith) (r : Registry) (h : ℕ) : Outcome Fl := do
  let a ← r.timer h
  pure (a.lazyVariance A kWindow)

/-- voxblox/src/utils/timing.cc:145-148 `GetMinSeconds`. -/
def Registry.minSeconds (r : Registry) (h : ℕ) : Outcome Fl := do
  let a ← r.timer h
  pure a.min

/-- voxblox/src/utils/timing.cc:152-155 `GetMaxSeconds`. -/
def Registry.maxSeconds (r : Registry) (h : ℕ) : Outcome Fl := do
  let a ← r.timer h
  pure a.max

/-- voxblox/src/utils/timing.cc:160-165 `GetHz`. -/
def Registry.hz (A : Arith) (r : Registry) (h : ℕ) : Outcome Fl := do
  let a ← r.timer h
  Outcome.check (Fl.lt (.fin 0) (a.rollingMean A kWindow))
  pure (A.div (.fin 1) (a.rollingMean A kWindow))

/-- voxblox/src/utils/timing.cc:216-219 `Reset`. -/
def Registry.reset (r : Registry) : Registry := { r with tags := [] }

/-! ### Timers -/

/-- voxblox/include/voxblox/utils/timing.h:145-148; the time is in nanoseconds since the epoch of the system clock. -/
structure Timer where
  time : ℤ
  timing : Bool
  handle : ℕ
deriving DecidableEq

/-- voxblox/src/utils/timing.cc:93-96 `Start`, at the given time. -/
def Timer.start (t : Timer) (now : ℤ) : Timer := { t with timing := true, time := now }

/-- voxblox/src/utils/timing.cc:79-82, the constructor; `time_` starts as the epoch. -/
def Timer.new (h : ℕ) (stopped : Bool) (now : ℤ) : Timer := if stopped then ⟨0, false, h⟩ else (⟨0, false, h⟩ : Timer).start now

/-- voxblox/src/utils/timing.cc:84-87, the constructor from a tag. -/
def Timer.ofTag (r : Registry) (tag : String) (stopped : Bool) (now : ℤ) : Timer × Registry :=
  (Timer.new (r.getHandle tag).1 stopped now, (r.getHandle tag).2)

/-- Nanoseconds as seconds, voxblox/src/utils/timing.cc:101-105; the constant is `1.e-9` (:35). -/
def seconds (A : Arith) (ns : ℤ) : Fl := A.mul (A.rnd ns) (A.rnd (1 / 1000000000))

/-- voxblox/src/utils/timing.cc:98-109 `Stop`: whether the timer runs is not asked. -/
def Timer.stop (A : Arith) (r : Registry) (t : Timer) (now : ℤ) : Outcome (Registry × Timer) := do
  let r ← r.addTime A t.handle (seconds A (now - t.time))
  pure (r, { t with timing := false })

/-- voxblox/src/utils/timing.cc:89-91, the destructor. -/
def Timer.destroy (A : Arith) (r : Registry) (t : Timer) (now : ℤ) : Outcome Registry :=
  if t.timing then do
    let x ← t.stop A r now
    pure x.1
  else .ok r

end Vox.Timing
