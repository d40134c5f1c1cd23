import Verif.Intra.Model

/-!
# The transform blocks of a block in the encoder

The loops of `write_tx_blocks`, `encoder.rs:2243-2407`, as the list of the transform blocks that are predicted, in order.  The size of a
block and of its transforms is in units of four pixels.  Coefficients and distortion are not part of this model.
-/

namespace Rav1e.Intra

/-- `has_chroma`, `context/transform_unit.rs:108-121`, for a stream that has chroma. -/
def hasChroma (boX boY bw bh xdec ydec : Nat) : Bool :=
  (decide (boX % 2 = 1) || decide (bw % 2 = 0) || decide (xdec = 0)) && (decide (boY % 2 = 1) || decide (bh % 2 = 0) || decide (ydec = 0))

/-- A transform block that is predicted: the arguments of `get_intra_edges` and the corner of the rectangle that is written,
`encoder.rs:1435-1439`, `tiling/plane_region.rs:91-96`. -/
structure TxSite where
  site : Site
  areaX : Nat
  areaY : Nat

/-- The luma loop, `encoder.rs:2251-2252` and `2276-2286`, with `encode_tx_block`, `encoder.rs:1435-1443`. -/
def lumaSites (miW miH boX boY bw4 bh4 tw th : Nat) : List TxSite :=
  let bw := bw4 / tw
  let bh := bh4 / th
  (List.range bh).flatMap fun by_ => (List.range bw).flatMap fun bx =>
    let txX := boX + bx * tw
    let txY := boY + by_ * th
    if txX ≥ miW ∨ txY ≥ miH then []
    else [⟨⟨txX <<< 2, txY <<< 2, 4 * tw, 4 * th, boX, boY, 4 * bw4, 4 * bh4, bx, by_⟩, txX <<< 2, txY <<< 2⟩]

/-- A loop whose body can panic. -/
def loop {α : Type} (n : Nat) (f : Nat → Option (List α)) : Option (List α) :=
  (List.range n).foldl (fun acc i => acc.bind fun l => (f i).map fun l' => l ++ l') (some [])

/-- The loop over one chroma plane, `encoder.rs:2329-2338` and `2362-2374`, with `encode_tx_block`, `encoder.rs:1435-1443`.  `tw`, `th` is the size
of the luma transforms, `utw`, `uth` the size of the chroma transforms. -/
def chromaSites (miW miH boX boY bw4 bh4 tw th utw uth xdec ydec : Nat) : Option (List TxSite) :=
  if !hasChroma boX boY bw4 bh4 xdec ydec then some []
  else
    let bw := bw4 / tw
    let bh := bh4 / th
    let w := (bw * tw) >>> xdec
    let h := (bh * th) >>> ydec
    let uv := if w = 0 ∨ h = 0 then (1, 1) else (w, h)
    loop (uv.2 / uth) fun by_ => loop (uv.1 / utw) fun bx =>
      (sub? (boX + ((bx * utw) <<< xdec)) ((if bw * tw = 1 then 1 else 0) * xdec)).bind fun txX =>
      (sub? (boY + ((by_ * uth) <<< ydec)) ((if bh * th = 1 then 1 else 0) * ydec)).bind fun txY =>
      if txX ≥ miW ∨ txY ≥ miH then some []
      else some [⟨⟨(boX >>> xdec) <<< 2 + bx * (4 * utw), (boY >>> ydec) <<< 2 + by_ * (4 * uth), 4 * utw, 4 * uth, boX, boY, 4 * bw4, 4 * bh4, bx, by_⟩,
        (txX >>> xdec) <<< 2, (txY >>> ydec) <<< 2⟩]

end Rav1e.Intra
