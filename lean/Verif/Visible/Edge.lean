import Verif.Visible.Theorems
import Verif.Metric.Model

/-!
# Squared errors at the edge of the picture
-/

namespace Rav1e.Visible

open Rav1e.Metric (weightedSse weightedChunk)

theorem mapM_congr_mem {α β : Type} {f g : α → Option β} : ∀ {l : List α}, (∀ x ∈ l, f x = g x) → l.mapM f = l.mapM g
  | [], _ => rfl
  | a :: l, h => by
    rw [List.mapM_cons, List.mapM_cons, h a List.mem_cons_self, mapM_congr_mem fun x hx => h x (List.mem_cons_of_mem _ hx)]

/-- A chunk depends on its pixels only. -/
theorem chunk_congr {a b a' b' : Nat → Nat → Nat} (s : Nat) (h : ∀ y x, y < 4 → x < 4 → a y x = a' y x ∧ b y x = b' y x) :
    weightedChunk a b s = weightedChunk a' b' s := by
  unfold weightedChunk
  congr 1
  apply mapM_congr_mem
  intro y hy
  congr 1
  apply mapM_congr_mem
  intro x hx
  obtain ⟨e1, e2⟩ := h y x (List.mem_range.mp hy) (List.mem_range.mp hx)
  rw [e1, e2]

/-- **C73**, a defect: the squared error (chroma, and luma when PSNR is tuned for) depends only on squares of 4x4 pixels that are complete, so that visible pixels to the right or below of
the last of them do not count. -/
theorem sse_edge_ignored (a b a' b' scale : Nat → Nat → Nat) (w h : Nat)
    (he : ∀ y x, y < h / 4 * 4 → x < w / 4 * 4 → a y x = a' y x ∧ b y x = b' y x) : weightedSse a b scale w h = weightedSse a' b' scale w h := by
  unfold weightedSse
  congr 1
  apply mapM_congr_mem
  intro y hy
  have hy := List.mem_range.mp hy
  congr 1
  apply mapM_congr_mem
  intro x hx
  have hx := List.mem_range.mp hx
  apply chunk_congr
  intro i j hi hj
  exact he _ _ (by omega) (by omega)

/-- The hypothesis is met by different pictures: with 3 visible columns nothing counts, although all pixels differ as much as they can. -/
theorem sse_edge_example : let F : Frame := ⟨11, 8, 1, 1, false⟩; let B : Blk := ⟨2, 0, 2, 2⟩
    lumaRect F B = some ⟨8, 0, 3, 8⟩ ∧ chromaRect F B = some ⟨4, 0, 2, 4⟩ ∧
    weightedSse (fun _ _ => 0) (fun _ _ => 255) (fun _ _ => 2 ^ 14) 3 8 = some 0 ∧ weightedSse (fun _ _ => 0) (fun _ _ => 255) (fun _ _ => 2 ^ 14) 2 4 = some 0 ∧
    weightedSse (fun _ _ => 0) (fun _ _ => 255) (fun _ _ => 2 ^ 14) 4 8 = some (4 * 8 * 255 ^ 2) := by decide +kernel

end Rav1e.Visible
