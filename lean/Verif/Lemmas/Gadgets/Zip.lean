import Verif.Lemmas.Gadgets.Hamming
import Verif.Lemmas.Gadgets.Driver

set_option linter.unusedSectionVars false
set_option linter.unusedSimpArgs false

/-! # Lists of allocated quantities built from lists of commitments -/

namespace Bp
variable {F G : Type} [Field F] [AddCommGroup G] [Module F G]

theorem hasA_zip {p : Prover F G} : ∀ {ds : List (G × Var)} {xs : List F}, List.Forall₂ p.HasV (ds.map Prod.snd) xs →
    List.Forall₂ p.HasA (List.zipWith (fun d x => ⟨d.2, some x⟩) ds xs) xs
  | [], xs, h => by cases h; exact .nil
  | d :: ds, xs, h => by
    cases h with
    | cons h1 h2 => exact .cons ⟨h1, rfl⟩ (hasA_zip h2)

theorem pair_zip : ∀ {ds : List (G × Var)} {xs : List F}, ds.length = xs.length →
    List.Forall₂ Alloc.Pair (List.zipWith (fun d x => (⟨d.2, some x⟩ : Alloc F)) ds xs) ((ds.map Prod.snd).map fun d => ⟨d, none⟩)
  | [], xs, h => by
    cases xs with
    | nil => exact .nil
    | cons => simp at h
  | d :: ds, xs, h => by
    cases xs with
    | nil => simp at h
    | cons x xs => exact .cons (Alloc.pair _ _) (pair_zip (by simpa using h))

theorem forall₂_evens {α β : Type} {R : α → β → Prop} : ∀ {xs : List α} {ys : List β}, List.Forall₂ R xs ys → List.Forall₂ R (evens xs) (evens ys)
  | _, _, .nil => .nil
  | _, _, .cons h .nil => .cons h .nil
  | _, _, .cons h1 (.cons _ h) => .cons h1 (forall₂_evens h)

theorem forall₂_odds {α β : Type} {R : α → β → Prop} : ∀ {xs : List α} {ys : List β}, List.Forall₂ R xs ys → List.Forall₂ R (odds xs) (odds ys)
  | _, _, .nil => .nil
  | _, _, .cons _ .nil => .nil
  | _, _, .cons _ (.cons h2 h) => .cons h2 (forall₂_odds h)

theorem evens_flatMap {α β : Type} (f g : α → β) : ∀ xs : List α, evens (xs.flatMap fun x => [f x, g x]) = xs.map f
  | [] => rfl
  | x :: xs => by simp [List.flatMap_cons, evens, evens_flatMap f g xs]

theorem odds_flatMap {α β : Type} (f g : α → β) : ∀ xs : List α, odds (xs.flatMap fun x => [f x, g x]) = xs.map g
  | [] => rfl
  | x :: xs => by simp [List.flatMap_cons, odds, odds_flatMap f g xs]

theorem map_range_getD {α β : Type} (f : α → β) (d : α) (xs : List α) : ((List.range xs.length).map fun i => f (xs.getD i d)) = xs.map f := by
  apply List.ext_getElem
  · simp
  · intro i h1 h2
    simp only [List.length_map, List.length_range] at h1
    simp [h1]

theorem nonMembershipWitness_fst (value : F) (set : List F) (sys : ℕ → F) :
    (nonMembershipWitness value set sys).map Prod.fst = (List.range set.length).flatMap fun i => [set.getD i 0 - value, (set.getD i 0 - value)⁻¹] := by
  simp [nonMembershipWitness, List.map_flatMap]

theorem zip_map_fst {α β : Type} {xs : List α} {ys : List β} (h : xs.length = ys.length) : (xs.zip ys).map Prod.fst = xs := by
  rw [List.map_fst_zip]; omega

theorem zipWith_fst {α β γ δ : Type} (f : α → β → γ) (xs : List α) (ys : List (β × δ)) :
    List.zipWith (fun x y => f x y.1) xs ys = List.zipWith f xs (ys.map Prod.fst) := by
  rw [List.zipWith_map_right]

end Bp
