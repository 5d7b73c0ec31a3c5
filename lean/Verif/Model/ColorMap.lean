/-
Colour maps (voxblox/include/voxblox/core/color.h, voxblox/include/voxblox/utils/color_maps.h). `rnd` is the rounding of `double`,
`rnd32` that of `float`; inputs are finite numbers.
-/
import Verif.Model.Tsdf

namespace Vox.ColorMap

/-- Conversion of a `double` to `uint8_t`: truncation toward zero, undefined unless the truncated value is representable.
Used in voxblox/include/voxblox/core/color.h:36-63, :80. -/
def toByte (q : ℚ) : Outcome (BitVec 8) := if -1 < q ∧ q < 256 then .ok (BitVec.ofInt 8 (if 0 ≤ q then ⌊q⌋ else 0)) else .ub

/-- The `switch`, voxblox/include/voxblox/core/color.h:33-70, as the triple (r, g, b) before the conversion to bytes. -/
def switch (rnd : ℚ → ℚ) (i : ℤ) (v m n : ℚ) : Vec3 ℚ :=
  if i = 6 ∨ i = 0 then ⟨rnd (255 * v), rnd (255 * n), rnd (255 * m)⟩
  else if i = 1 then ⟨rnd (255 * n), rnd (255 * v), rnd (255 * m)⟩
  else if i = 2 then ⟨rnd (255 * m), rnd (255 * v), rnd (255 * n)⟩
  else if i = 3 then ⟨rnd (255 * m), rnd (255 * n), rnd (255 * v)⟩
  else if i = 4 then ⟨rnd (255 * n), rnd (255 * m), rnd (255 * v)⟩
  else if i = 5 then ⟨rnd (255 * v), rnd (255 * m), rnd (255 * n)⟩
  else ⟨255, 127, 127⟩

/-- voxblox/include/voxblox/core/color.h:27-29 `f`. -/
def ramp (rnd : ℚ → ℚ) (h : ℚ) : ℚ := if ⌊h⌋ % 2 = 0 then rnd (1 - rnd (h - ⌊h⌋)) else rnd (h - ⌊h⌋)

/-- voxblox/include/voxblox/core/color.h:14-73 `rainbowColorMap`; `s` and `v` are 1. -/
def rainbow (rnd : ℚ → ℚ) (h : ℚ) : Outcome Color := do
  let s : ℚ := 1
  let v : ℚ := 1
  let h := rnd (h - ⌊h⌋)
  let h := rnd (h * 6)
  let f := ramp rnd h
  let m := rnd (v * rnd (1 - s))
  let n := rnd (v * rnd (1 - rnd (s * f)))
  let c := switch rnd ⌊h⌋ v m n
  let r ← toByte c.x
  let g ← toByte c.y
  let b ← toByte c.z
  pure ⟨r, g, b, 255⟩

/-- voxblox/include/voxblox/core/color.h:76-85 `grayColorMap`. -/
def gray (rnd : ℚ → ℚ) (h : ℚ) : Outcome Color := do
  let c ← toByte (roundHalfAway (rnd (h * 255)))
  pure ⟨c, c, c, 255⟩

/-- voxblox/include/voxblox/utils/color_maps.h:31-32 (and :40-41, :49-50, :58-59, :79-80): clamping and scaling. `none` is NaN (0 / 0,
for equal limits). -/
def normalized (rnd32 : ℚ → ℚ) (lo hi value : ℚ) : Option ℚ :=
  let x := min hi (max lo value)
  if rnd32 (hi - lo) = 0 then none else some (rnd32 (rnd32 (x - lo) / rnd32 (hi - lo)))

/-- voxblox/include/voxblox/utils/color_maps.h:28-35 `GrayscaleColorMap::colorLookup`; converting NaN is undefined. -/
def grayscale (rnd rnd32 : ℚ → ℚ) (lo hi value : ℚ) : Outcome Color :=
  match normalized rnd32 lo hi value with
  | none => .ub
  | some x => gray rnd x

/-- voxblox/include/voxblox/utils/color_maps.h:37-44 `InverseGrayscaleColorMap::colorLookup`. -/
def inverseGrayscale (rnd rnd32 : ℚ → ℚ) (lo hi value : ℚ) : Outcome Color :=
  match normalized rnd32 lo hi value with
  | none => .ub
  | some x => gray rnd (rnd (1 - x))

/-- voxblox/include/voxblox/utils/color_maps.h:46-53 `RainbowColorMap::colorLookup`; `int(floor(NaN))` is undefined. -/
def rainbowMap (rnd rnd32 : ℚ → ℚ) (lo hi value : ℚ) : Outcome Color :=
  match normalized rnd32 lo hi value with
  | none => .ub
  | some x => rainbow rnd x

/-- voxblox/include/voxblox/utils/color_maps.h:55-62 `InverseRainbowColorMap::colorLookup`. -/
def inverseRainbowMap (rnd rnd32 : ℚ → ℚ) (lo hi value : ℚ) : Outcome Color :=
  match normalized rnd32 lo hi value with
  | none => .ub
  | some x => rainbow rnd (rnd (1 - x))

/-- voxblox/include/voxblox/utils/color_maps.h:66-73 `palette_colors_`. -/
def palette : List Color :=
  [⟨0, 0, 0, 255⟩, ⟨145, 20, 145, 255⟩, ⟨255, 138, 0, 255⟩, ⟨255, 230, 40, 255⟩, ⟨255, 255, 255, 255⟩, ⟨255, 255, 255, 255⟩]

/-- voxblox/include/voxblox/utils/color_maps.h:75 `increment_`: a quarter, exactly. -/
def increment : ℚ := 1 / ((palette.length : ℚ) - 2)

/-- `palette_colors_[i]`, voxblox/include/voxblox/utils/color_maps.h:85-87: unchecked. -/
def paletteAt (i : ℤ) : Outcome Color :=
  if i < 0 then .ub
  else match palette[i.toNat]? with
    | some c => .ok c
    | none => .ub

/-- voxblox/include/voxblox/utils/color_maps.h:78-87 `IronbowColorMap::colorLookup`; a NaN index is undefined. The division by
1/4 and the products with it are exact in `float`; the weights are rounded, their blend is computed in `A`. -/
def ironbow (A : Arith) (rnd32 : ℚ → ℚ) (lo hi value : ℚ) : Outcome Color :=
  match normalized rnd32 lo hi value with
  | none => .ub
  | some x => do
    let i := ⌊x / increment⌋
    let c1 ← paletteAt i
    let c2 ← paletteAt (i + 1)
    Tsdf.blend A c1 (.fin (rnd32 (increment * (i + 1) - x))) c2 (.fin (rnd32 (x - increment * i)))

/-- `fmod(x, 1)` of a non-negative number, voxblox/include/voxblox/utils/color_maps.h:114, :136. -/
def fmod1 (x : ℚ) : ℚ := x - ⌊x⌋

/-- The argument of `rainbowColorMap` in voxblox/include/voxblox/utils/color_maps.h:113-116 `IrrationalIdColorMap::colorLookup`;
`fmod` of the infinity or NaN for base zero is NaN. Exact arithmetic. -/
def irrationalHue (base : ℚ) (value : ℕ) : Outcome ℚ := if base = 0 then .ub else .ok (if 0 ≤ base then fmod1 (value / base) else -fmod1 (-(value / base)))

/-- The argument of `rainbowColorMap` in voxblox/include/voxblox/utils/color_maps.h:133-154
`ExponentialOffsetIdColorMap::colorLookup`. `items` is a whole number (`setItemsPerRevolution` takes an unsigned integer); a division by
zero makes the conversion to `size_t` undefined. Exact arithmetic. -/
def exponentialHue (items value : ℕ) : Outcome ℚ :=
  if items = 0 then .ub
  else
    let revolution : ℕ := (⌊(value : ℚ) / items⌋).toNat
    let progress := fmod1 ((value : ℚ) / items)
    if items < value + 1 then
      let episodeStart := 2 ^ Nat.log2 revolution
      let subdivision := revolution - episodeStart
      let stepSize : ℚ := 1 / (items * 2 * episodeStart)
      .ok (progress + (2 * subdivision + 1 : ℕ) * stepSize)
    else .ok (progress + 0)

end Vox.ColorMap
