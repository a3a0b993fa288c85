import Verif.Model.Networks
import Verif.Lemmas.Except
import Mathlib.Tactic.NormNum

/-!
# C147: the networks that come with the package
-/

namespace Cleanlab.Props

open Cleanlab.Networks

theorem ok_bind' {α β : Type} (a : α) (f : α → Except String β) : (Except.ok a >>= f) = f a := rfl

theorem error_bind' {α β : Type} (e : String) (f : α → Except String β) : ((Except.error e : Except String α) >>= f) = .error e := rfl

theorem conv_ok (i o k p n h w : ℕ) (hh : k ≤ h + 2 * p) (hw : k ≤ w + 2 * p) :
    conv i o k p ⟨n, i, h, w⟩ = .ok ⟨n, o, h + 2 * p - k + 1, w + 2 * p - k + 1⟩ := by
  unfold conv
  rw [if_neg (by simp), if_neg (by simp only [not_or, not_lt]; exact ⟨hh, hw⟩)]

theorem conv_small (i o k p n h w : ℕ) (hs : h + 2 * p < k ∨ w + 2 * p < k) :
    conv i o k p ⟨n, i, h, w⟩ = .error "Kernel size can't be greater than actual input size" := by
  unfold conv
  rw [if_neg (by simp), if_pos hs]

theorem conv_same (i o n h w : ℕ) (hh : 1 ≤ h) (hw : 1 ≤ w) : conv i o 3 1 ⟨n, i, h, w⟩ = .ok ⟨n, o, h, w⟩ := by
  rw [conv_ok _ _ _ _ _ _ _ (by omega) (by omega)]
  congr <;> omega

theorem maxPool_ok (n c h w : ℕ) (hh : 2 ≤ h) (hw : 2 ≤ w) : maxPool ⟨n, c, h, w⟩ = .ok ⟨n, c, h / 2, w / 2⟩ := by
  unfold maxPool
  rw [if_neg (by dsimp only; omega)]

theorem maxPool_small (n c h w : ℕ) (hs : h < 2 ∨ w < 2) : maxPool ⟨n, c, h, w⟩ = .error "Output size is too small" := by
  unfold maxPool
  rw [if_pos (by dsimp only; omega)]

theorem batchNorm_ok (n c h w : ℕ) : batchNorm c ⟨n, c, h, w⟩ = .ok ⟨n, c, h, w⟩ := by
  unfold batchNorm
  rw [if_neg (by simp)]

/-- The rows for square images: the side of the image after both convolutions is `((h - 4) / 2 - 4) / 2`. -/
theorem simpleNet_square (n h : ℕ) (hh : 16 ≤ h) :
    simpleNet ⟨n, 1, h, h⟩ =
      if (n * 20 * (((h - 4) / 2 - 4) / 2) * (((h - 4) / 2 - 4) / 2)) % 320 ≠ 0 then
        .error "shape is invalid for input of this size"
      else .ok (n * 20 * (((h - 4) / 2 - 4) / 2) * (((h - 4) / 2 - 4) / 2) / 320, 10) := by
  unfold simpleNet
  have e1 : h + 2 * 0 - 5 + 1 = h - 4 := by omega
  have e2 : (h - 4) / 2 + 2 * 0 - 5 + 1 = (h - 4) / 2 - 4 := by omega
  rw [conv_ok _ _ _ _ _ _ _ (by omega) (by omega), ok_bind', e1, maxPool_ok _ _ _ _ (by omega) (by omega), ok_bind',
    conv_ok _ _ _ _ _ _ _ (by omega) (by omega), ok_bind', e2, maxPool_ok _ _ _ _ (by omega) (by omega), ok_bind']
  rfl

/-- **C147.** The network for digits gives ten outputs for each image of 28 by 28 pixels. -/
theorem C147_digits (n : ℕ) : simpleNet ⟨n, 1, 28, 28⟩ = .ok (n, 10) := by
  rw [simpleNet_square n 28 (by norm_num)]
  rw [if_neg (by norm_num; omega)]
  have : n * 20 * (((28 - 4) / 2 - 4) / 2) * (((28 - 4) / 2 - 4) / 2) / 320 = n := by norm_num; omega
  rw [this]

/-- **C147 fails for larger images.** With images of 44 by 44 pixels the network returns four rows of outputs per image instead of
refusing them. -/
theorem C147_not_one_row (n : ℕ) : simpleNet ⟨n, 1, 44, 44⟩ = .ok (4 * n, 10) := by
  rw [simpleNet_square n 44 (by norm_num)]
  rw [if_neg (by norm_num; omega)]
  have : n * 20 * (((44 - 4) / 2 - 4) / 2) * (((44 - 4) / 2 - 4) / 2) / 320 = 4 * n := by norm_num; omega
  rw [this]

/-- The CIFAR network up to the last convolution. -/
theorem cifarNet_eq (ch out : ℕ) (tb : Bool) (n h w : ℕ) (hh : 28 ≤ h) (hw : 28 ≤ w) :
    cifarNet ch out tb ⟨n, ch, h, w⟩ = (do
      let s ← avgPool (h / 4 - 6) ⟨n, 128, h / 4 - 6, w / 4 - 6⟩
      if s.n * s.c * s.h * s.w ≠ s.n * s.c then .error "shape is invalid for input of this size"
      else if s.c ≠ 128 then .error "mat1 and mat2 shapes cannot be multiplied"
      else if tb then .error "'CNN' object has no attribute 'bn_c1'"
      else return (s.n, out)) := by
  unfold cifarNet
  have e1 : h / 2 / 2 = h / 4 := by omega
  have e2 : w / 2 / 2 = w / 4 := by omega
  have e3 : h / 4 + 2 * 0 - 3 + 1 = h / 4 - 2 := by omega
  have e4 : w / 4 + 2 * 0 - 3 + 1 = w / 4 - 2 := by omega
  have e5 : h / 4 - 2 + 2 * 0 - 3 + 1 = h / 4 - 4 := by omega
  have e6 : w / 4 - 2 + 2 * 0 - 3 + 1 = w / 4 - 4 := by omega
  have e7 : h / 4 - 4 + 2 * 0 - 3 + 1 = h / 4 - 6 := by omega
  have e8 : w / 4 - 4 + 2 * 0 - 3 + 1 = w / 4 - 6 := by omega
  rw [conv_same _ _ _ _ _ (by omega) (by omega), ok_bind', batchNorm_ok, ok_bind',
    conv_same _ _ _ _ _ (by omega) (by omega), ok_bind', batchNorm_ok, ok_bind',
    conv_same _ _ _ _ _ (by omega) (by omega), ok_bind', batchNorm_ok, ok_bind',
    maxPool_ok _ _ _ _ (by omega) (by omega), ok_bind',
    conv_same _ _ _ _ _ (by omega) (by omega), ok_bind', batchNorm_ok, ok_bind',
    conv_same _ _ _ _ _ (by omega) (by omega), ok_bind', batchNorm_ok, ok_bind',
    conv_same _ _ _ _ _ (by omega) (by omega), ok_bind', batchNorm_ok, ok_bind',
    maxPool_ok _ _ _ _ (by omega) (by omega), ok_bind', e1, e2,
    conv_ok _ _ _ _ _ _ _ (by omega) (by omega), ok_bind', batchNorm_ok, ok_bind', e3, e4,
    conv_ok _ _ _ _ _ _ _ (by omega) (by omega), ok_bind', batchNorm_ok, ok_bind', e5, e6,
    conv_ok _ _ _ _ _ _ _ (by omega) (by omega), ok_bind', batchNorm_ok, ok_bind', e7, e8]

/-- **C147.** The CIFAR network gives one row for each square image of at least 28 by 28 pixels with the right number of
channels. -/
theorem C147_cifar (ch out n h : ℕ) (hh : 28 ≤ h) : cifarNet ch out false ⟨n, ch, h, h⟩ = .ok (n, out) := by
  rw [cifarNet_eq ch out false n h h hh hh]
  unfold avgPool
  rw [if_neg (by simp), ok_bind']
  simp
  rfl

/-- **C147.** Smaller images are refused. -/
theorem C147_cifar_small (ch out n h : ℕ) (tb : Bool) (hh : h < 28) : ∃ e, cifarNet ch out tb ⟨n, ch, h, h⟩ = .error e := by
  unfold cifarNet
  by_cases h0 : h = 0
  · rw [conv_small _ _ _ _ _ _ _ (by omega), error_bind']
    exact ⟨_, rfl⟩
  rw [conv_same _ _ _ _ _ (by omega) (by omega), ok_bind', batchNorm_ok, ok_bind',
    conv_same _ _ _ _ _ (by omega) (by omega), ok_bind', batchNorm_ok, ok_bind',
    conv_same _ _ _ _ _ (by omega) (by omega), ok_bind', batchNorm_ok, ok_bind']
  by_cases h1 : h < 2
  · rw [maxPool_small _ _ _ _ (Or.inl h1), error_bind']
    exact ⟨_, rfl⟩
  rw [maxPool_ok _ _ _ _ (by omega) (by omega), ok_bind',
    conv_same _ _ _ _ _ (by omega) (by omega), ok_bind', batchNorm_ok, ok_bind',
    conv_same _ _ _ _ _ (by omega) (by omega), ok_bind', batchNorm_ok, ok_bind',
    conv_same _ _ _ _ _ (by omega) (by omega), ok_bind', batchNorm_ok, ok_bind']
  by_cases h2 : h / 2 < 2
  · rw [maxPool_small _ _ _ _ (Or.inl h2), error_bind']
    exact ⟨_, rfl⟩
  rw [maxPool_ok _ _ _ _ (by omega) (by omega), ok_bind']
  by_cases h3 : h / 2 / 2 < 3
  · rw [conv_small _ _ _ _ _ _ _ (Or.inl (by omega)), error_bind']
    exact ⟨_, rfl⟩
  rw [conv_ok _ _ _ _ _ _ _ (by omega) (by omega), ok_bind', batchNorm_ok, ok_bind']
  by_cases h4 : h / 2 / 2 < 5
  · rw [conv_small _ _ _ _ _ _ _ (Or.inl (by omega)), error_bind']
    exact ⟨_, rfl⟩
  rw [conv_ok _ _ _ _ _ _ _ (by omega) (by omega), ok_bind', batchNorm_ok, ok_bind',
    conv_small _ _ _ _ _ _ _ (Or.inl (by omega)), error_bind']
  exact ⟨_, rfl⟩

/-- **C147 fails for wide images.** An image of 32 by 39 pixels is accepted although the last columns of its features are
ignored (one column of pooling windows, two of three columns used); one of 32 by 40 is refused. -/
theorem C147_not_wide (ch out n : ℕ) (hn : 0 < n) : cifarNet ch out false ⟨n, ch, 32, 39⟩ = .ok (n, out) ∧
    ∃ e, cifarNet ch out false ⟨n, ch, 32, 40⟩ = .error e := by
  constructor
  · rw [cifarNet_eq ch out false n 32 39 (by norm_num) (by norm_num)]
    unfold avgPool
    rw [if_neg (by norm_num), ok_bind']
    norm_num
    rfl
  · rw [cifarNet_eq ch out false n 32 40 (by norm_num) (by norm_num)]
    unfold avgPool
    rw [if_neg (by norm_num), ok_bind']
    norm_num
    rw [if_neg (by omega)]
    exact ⟨_, rfl⟩

/-- **C147 fails for `top_bn=True`.** The network can be created but no image can be evaluated. -/
theorem C147_not_top_bn (ch out n h : ℕ) : ∃ e, cifarNet ch out true ⟨n, ch, h, h⟩ = .error e := by
  by_cases hh : h < 28
  · exact C147_cifar_small ch out n h true hh
  · rw [cifarNet_eq ch out true n h h (by omega) (by omega)]
    unfold avgPool
    rw [if_neg (by simp), ok_bind']
    simp

/-- **C147.** In evaluation mode the output of the network for digits depends on nothing but the image. -/
theorem C147_digits_deterministic {R X : Type} (l : SimpleLayers R X) (r1 r2 r1' r2' : R) (x : X) :
    simpleForward l false r1 r2 x = simpleForward l false r1' r2' x := rfl

/-- Layers that pass on one number; the random layer keeps or drops it. -/
def oneChannel : CifarLayers Bool ℚ :=
  ⟨fun _ x => x, fun _ x => x, fun _ x => x, fun keep x => if keep then x * (4 / 3) else 0⟩

/-- **C147 fails for the CIFAR network.** Its random layers stay active in evaluation mode: the same image has the outputs 16/9
and 0. -/
theorem C147_not_deterministic : cifarForward oneChannel false true true 1 = 16 / 9 ∧
    cifarForward oneChannel false false true 1 = 0 := by
  constructor <;> decide +kernel

/-- **C147.** All that evaluation mode fixes is the three blocks between the random layers: if the random layers happen to agree
on what they are given, so do the outputs. -/
theorem C147_cifar_random {R X : Type} (l : CifarLayers R X) (training : Bool) (r1 r2 r1' r2' : R) (x : X)
    (h1 : ∀ y, l.drop r1 y = l.drop r1' y) (h2 : ∀ y, l.drop r2 y = l.drop r2' y) :
    cifarForward l training r1 r2 x = cifarForward l training r1' r2' x := by
  simp only [cifarForward, dropout2dDefault, h1, h2]

end Cleanlab.Props
