import Verif.Spec.Semantics
import Mathlib.Algebra.BigOperators.Group.List.Basic
import Mathlib.Algebra.BigOperators.Ring.List
import Mathlib.Tactic.Ring
import Mathlib.Tactic.LinearCombination
import Mathlib.Data.List.Nodup

namespace Bp
variable {F : Type} [Field F]
namespace LC

/-- Value of a raw term list. -/
def termsVal (σ : Assignment F) (ts : List (Var × F)) : F := (ts.map (fun t => t.2 * σ.val t.1)).sum

theorem value_def (σ : Assignment F) (l : LC F) : l.value σ = termsVal σ l.terms := rfl

@[simp] theorem termsVal_nil (σ : Assignment F) : termsVal σ [] = 0 := rfl
@[simp] theorem termsVal_cons (σ : Assignment F) (t : Var × F) (ts) :
    termsVal σ (t :: ts) = t.2 * σ.val t.1 + termsVal σ ts := by simp [termsVal]
@[simp] theorem termsVal_append (σ : Assignment F) (a b : List (Var × F)) :
    termsVal σ (a ++ b) = termsVal σ a + termsVal σ b := by simp [termsVal]

theorem termsVal_map_neg (σ : Assignment F) (ts : List (Var × F)) :
    termsVal σ (ts.map (fun t => (t.1, -t.2))) = - termsVal σ ts := by
  induction ts with
  | nil => simp
  | cons t ts ih => simp [ih]; ring

theorem termsVal_map_mul (σ : Assignment F) (s : F) (ts : List (Var × F)) :
    termsVal σ (ts.map (fun t => (t.1, t.2 * s))) = s * termsVal σ ts := by
  induction ts with
  | nil => simp
  | cons t ts ih => simp [ih]; ring

theorem termsVal_perm {σ : Assignment F} {a b : List (Var × F)} (h : a.Perm b) :
    termsVal σ a = termsVal σ b := (h.map _).sum_eq

theorem termsVal_upsert (σ : Assignment F) (m : List (Var × F)) (v : Var) (x : F) :
    termsVal σ (upsert m v x) = termsVal σ m + x * σ.val v := by
  induction m with
  | nil => simp [upsert]
  | cons t m ih =>
    obtain ⟨w, y⟩ := t
    by_cases h : w = v
    · subst h; simp [upsert]; ring
    · simp [upsert, h, ih]; ring

theorem upsert_keys_mem (m : List (Var × F)) (v w : Var) (x : F) :
    w ∈ (upsert m v x).map Prod.fst ↔ w ∈ m.map Prod.fst ∨ w = v := by
  induction m with
  | nil => simp [upsert]
  | cons t m ih =>
    obtain ⟨k, y⟩ := t
    by_cases h : k = v
    · subst h; simp only [upsert, if_true, List.map_cons, List.mem_cons]; tauto
    · simp only [upsert, h, if_false, List.map_cons, List.mem_cons, ih]; tauto

theorem upsert_nodup (m : List (Var × F)) (v : Var) (x : F) (h : (m.map Prod.fst).Nodup) :
    ((upsert m v x).map Prod.fst).Nodup := by
  induction m with
  | nil => simp [upsert]
  | cons t m ih =>
    obtain ⟨k, y⟩ := t
    simp only [List.map_cons, List.nodup_cons] at h
    by_cases hk : k = v
    · subst hk; simp [upsert, h.1, h.2]
    · simp only [upsert, hk, if_false, List.map_cons, List.nodup_cons]
      refine ⟨?_, ih h.2⟩
      rw [upsert_keys_mem]
      rintro (h' | h')
      · exact h.1 h'
      · exact hk h'

theorem foldl_upsert_val (σ : Assignment F) (ts m : List (Var × F)) :
    termsVal σ (ts.foldl (fun m t => upsert m t.1 t.2) m) = termsVal σ m + termsVal σ ts := by
  induction ts generalizing m with
  | nil => simp
  | cons t ts ih => simp only [List.foldl_cons]; rw [ih, termsVal_upsert, termsVal_cons]; ring

theorem foldl_upsert_nodup (ts m : List (Var × F)) (h : (m.map Prod.fst).Nodup) :
    ((ts.foldl (fun m t => upsert m t.1 t.2) m).map Prod.fst).Nodup := by
  induction ts generalizing m with
  | nil => exact h
  | cons t ts ih => exact ih _ (upsert_nodup _ _ _ h)

theorem foldl_upsert_keys (ts m : List (Var × F)) (w : Var) :
    w ∈ (ts.foldl (fun m t => upsert m t.1 t.2) m).map Prod.fst ↔ w ∈ m.map Prod.fst ∨ w ∈ ts.map Prod.fst := by
  induction ts generalizing m with
  | nil => simp
  | cons t ts ih =>
    simp only [List.foldl_cons, ih, upsert_keys_mem, List.map_cons, List.mem_cons]; tauto

theorem collect_val (σ : Assignment F) (ts : List (Var × F)) : termsVal σ (collect ts) = termsVal σ ts := by
  simp [collect, foldl_upsert_val]

theorem collect_nodup (ts : List (Var × F)) : ((collect ts).map Prod.fst).Nodup :=
  foldl_upsert_nodup ts [] (by simp)

theorem collect_keys (ts : List (Var × F)) (w : Var) :
    w ∈ (collect ts).map Prod.fst ↔ w ∈ ts.map Prod.fst := by
  simp only [collect, foldl_upsert_keys]; simp

end LC
end Bp
