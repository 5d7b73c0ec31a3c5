/-
Approximate hash set and array (voxblox/include/voxblox/utils/approx_hash_array.h) and the index
hashers of voxblox/include/voxblox/core/block_hash.h.
-/
import Verif.Model.Basic

namespace Vox.ApproxHash

/-- voxblox/include/voxblox/utils/approx_hash_array.h:57 and :173 `bit_mask_` (template parameter
`m = unmasked_bits`; the shift is done on `int`, so `m ≤ 30` in any program that compiles). -/
def bitMask (m : ℕ) : ℕ := (1 <<< m) - 1

/-- voxblox/include/voxblox/utils/approx_hash_array.h:56 `pseudo_map_size_`. -/
def arraySize (m : ℕ) : ℕ := 1 <<< m

/-- voxblox/include/voxblox/utils/approx_hash_array.h:40-42 `ApproxHashArray::get(hash)`: the position
of the returned element; undefined if it were outside the array. -/
def arrayGet (m hash : ℕ) : Outcome ℕ := do
  let i := hash &&& bitMask m
  Outcome.require (i < arraySize m)
  pure i

/-- voxblox/include/voxblox/utils/approx_hash_array.h:171-172 `pseudo_set_size_`
(`thr = full_reset_threshold`). -/
def setSize (m thr : ℕ) : ℕ := (1 <<< m) + thr

/-- `std::numeric_limits<size_t>::max()`.
Serves the model of voxblox/include/voxblox/utils/approx_hash_array.h:38-176. -/
def sizeMax : ℕ := 2 ^ 64 - 1

/-- Members of `ApproxHashSet`, voxblox/include/voxblox/utils/approx_hash_array.h:175-178. The vector
of atomics is a function on positions; positions at or beyond `setSize` do not exist and every access
to them is reported as undefined. -/
structure HSet where
  offset : ℕ
  slots : ℕ → ℕ

/-- The contents written by the loops at
voxblox/include/voxblox/utils/approx_hash_array.h:82-89 and :157-167: zero everywhere, the maximal
value in bin zero. -/
def clearedSlots : ℕ → ℕ := fun i => if i = 0 then sizeMax else 0

/-- voxblox/include/voxblox/utils/approx_hash_array.h:81-90 constructor. -/
def init : HSet := { offset := 0, slots := clearedSlots }

/-- `array_index`, voxblox/include/voxblox/utils/approx_hash_array.h:99 and :126. -/
def slotOf (m : ℕ) (s : HSet) (hash : ℕ) : ℕ := (hash &&& bitMask m) + s.offset

/-- voxblox/include/voxblox/utils/approx_hash_array.h:98-102 `isHashCurrentlyPresent`; also the load of
`replaceHash` (line 128). One atomic load. -/
def present (m thr : ℕ) (s : HSet) (hash : ℕ) : Outcome Bool := do
  let i := slotOf m s hash
  Outcome.require (i < setSize m thr)
  pure (s.slots i == hash)

/-- The store of `replaceHash`, voxblox/include/voxblox/utils/approx_hash_array.h:131. One atomic
store. -/
def store (m thr : ℕ) (s : HSet) (hash : ℕ) : Outcome HSet := do
  let i := slotOf m s hash
  Outcome.require (i < setSize m thr)
  pure { s with slots := fun j => if j = i then hash else s.slots j }

/-- voxblox/include/voxblox/utils/approx_hash_array.h:125-134 `replaceHash`, executed without
interruption. -/
def replaceHash (m thr : ℕ) (s : HSet) (hash : ℕ) : Outcome (HSet × Bool) := do
  if ← present m thr s hash then pure (s, false)
  else
    let s' ← store m thr s hash
    pure (s', true)

/-- voxblox/include/voxblox/utils/approx_hash_array.h:155-168 `resetApproxSet`. -/
def reset (thr : ℕ) (s : HSet) : HSet :=
  if s.offset + 1 ≥ thr then { offset := 0, slots := clearedSlots }
  else { s with offset := s.offset + 1 }

/-- voxblox/include/voxblox/core/block_hash.h:20-31 `AnyIndexHash` (index components `int`; the sum is
converted to 32-bit unsigned). -/
def anyIndexHash (i : Idx) : ℕ := ((i.x + i.y * 17191 + i.z * (17191 * 17191)) % 2 ^ 32).toNat

/-- voxblox/include/voxblox/core/block_hash.h:54-64 `LongIndexHash` (index components `int64_t`). -/
def longIndexHash (i : Idx) : ℕ := ((i.x + i.y * 17191 + i.z * (17191 * 17191)) % 2 ^ 32).toNat

/-- The atomic actions of threads using the set: a query, the load of a `replaceHash` by thread `t`, the
store of that `replaceHash`, a reset.
Serves the model of voxblox/include/voxblox/utils/approx_hash_array.h:38-176. -/
inductive Ev where
  | query (hash : ℕ) (answer : Bool)
  | load (t hash : ℕ) (answer : Bool)
  | store (t hash : ℕ)
  | reset
deriving DecidableEq, Repr

/-- Executions of any number of threads (most recent event first). `waiting t = some h` means thread `t`
is between the load and the store of `replaceHash h`,
voxblox/include/voxblox/utils/approx_hash_array.h:125-134. The reset is documented as not thread safe
(line 154), so it only happens while no thread is inside `replaceHash`. Simplification: relaxed atomics
are modelled by sequentially consistent interleaving (each slot is a single atomic variable, and all
operations touch one slot only). -/
inductive Exec (m thr : ℕ) : List Ev → HSet → (ℕ → Option ℕ) → Prop
  | init : Exec m thr [] init (fun _ => none)
  | query {tr s w} (h : ℕ) (b : Bool) : Exec m thr tr s w → present m thr s h = .ok b →
      Exec m thr (.query h b :: tr) s w
  | loadHit {tr s w} (t h : ℕ) : Exec m thr tr s w → w t = none → present m thr s h = .ok true →
      Exec m thr (.load t h true :: tr) s w
  | loadMiss {tr s w} (t h : ℕ) : Exec m thr tr s w → w t = none → present m thr s h = .ok false →
      Exec m thr (.load t h false :: tr) s (fun u => if u = t then some h else w u)
  | store {tr s w s'} (t h : ℕ) : Exec m thr tr s w → w t = some h → store m thr s h = .ok s' →
      Exec m thr (.store t h :: tr) s' (fun u => if u = t then none else w u)
  | reset {tr s w} : Exec m thr tr s w → (∀ t, w t = none) →
      Exec m thr (.reset :: tr) (reset thr s) w

end Vox.ApproxHash
