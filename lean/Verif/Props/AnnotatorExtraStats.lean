import Verif.Props.AnnotatorExtraClass

/-!
# C244: a class nobody uses and the table of annotator statistics
-/

namespace Cleanlab.Props

open Np Cleanlab.Rank Cleanlab.Multiannotator

variable {n M K : ℕ} {F : Type} [Field F] [LinearOrder F]

theorem extendA_eq (L : Annotations n M K) (i : Fin n) (m : Fin M) (k : Fin K) :
    extendA L i m = some k.castSucc ↔ L i m = some k := by
  rw [← beq_iff_eq, extendA_beq, beq_iff_eq]

theorem extendA_ne_last (L : Annotations n M K) (i : Fin n) (m : Fin M) : extendA L i m ≠ some (Fin.last K) := by
  rw [← beq_eq_false_iff_ne]
  exact extendA_last L i m

omit [LinearOrder F] in
/-- **C244.** The agreement with the consensus labels in the table of annotators is the same (also where it is missing). -/
theorem C244_stats_agreement (L : Annotations n M K) (c : Fin n → Fin K) (m : Fin M) :
    statsAgreement (F := F) (extendA L) (extendL c) m = statsAgreement L c m := by
  unfold statsAgreement extendL
  simp only [extendA_isSome, extendA_beq]

omit [LinearOrder F] in
theorem groupMean_extendA (L : Annotations n M K) (m : Fin M) (k : Fin K) (f : Fin n → F) :
    groupMean (extendA L) m k.castSucc f = groupMean L m k f := by
  unfold groupMean
  simp only [extendA_beq]

theorem usedClasses_extendA (L : Annotations n M K) (m : Fin M) :
    (List.finRange (K + 1)).filter (fun k => decide (∃ i, extendA L i m = some k)) =
      ((List.finRange K).filter (fun k => decide (∃ i, L i m = some k))).map Fin.castSucc := by
  rw [List.finRange_succ_last, List.filter_append, List.filter_map]
  have h1 : (List.filter (fun k => decide (∃ i, extendA L i m = some k)) [Fin.last K]) = [] := by
    rw [List.filter_eq_nil_iff]
    intro a ha
    rw [List.mem_singleton.mp ha]
    simp only [decide_eq_true_eq, not_exists]
    exact fun i => extendA_ne_last L i m
  rw [h1, List.append_nil]
  congr 2
  funext k
  simp only [Function.comp, extendA_eq]

/-- **C244.** The worst class of every annotator is the same, for the same quality scores; in particular it is never the class
nobody uses. -/
theorem C244_worst_class (L : Annotations n M K) (c : Fin n → Fin K) (q : Fin n → F) (m : Fin M) :
    worstClass (extendA L) (extendL c) q m = (worstClass L c q m).map Fin.castSucc := by
  have ha : ∀ k : Fin K, -(groupMean (extendA L) m k.castSucc (fun i => if extendA L i m = some (extendL c i) then (1 : F) else 0)) =
      -(groupMean L m k (fun i => if L i m = some (c i) then (1 : F) else 0)) := by
    intro k
    rw [groupMean_extendA]
    unfold extendL
    simp only [extendA_eq]
  have hc : ∀ k : Fin K, ((List.finRange n).countP (fun i => extendA L i m == some k.castSucc) : F) =
      ((List.finRange n).countP (fun i => L i m == some k) : F) := by
    intro k
    simp only [extendA_beq]
  unfold worstClass
  dsimp only
  rw [usedClasses_extendA, keepMax_castSucc ha, List.length_map, keepMax_castSucc hc, List.length_map,
    keepMax_castSucc (fun k => groupMean_extendA L m k q)]
  simp only [List.head?_map]
  split_ifs <;> rfl

/-- The fourth annotator of `fourL` disagrees where they chose class 1: this remains their worst class with a third class. -/
example : worstClass (F := ℚ) (extendA fourL) (extendL ![0, 1]) ![1, 1] 3 = some 1 ∧
    statsAgreement (F := ℚ) (extendA fourL) (extendL ![0, 1]) 3 = some (1 / 2) := by
  decide +kernel

end Cleanlab.Props
