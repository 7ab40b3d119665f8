import Verif.Lemmas.Algebraic2
import Verif.Lemmas.Gadgets.OnePhase

/-! # The drivers of the verifier commute with linear maps -/

set_option linter.unusedSectionVars false

namespace Bp
variable {F G M : Type} [Field F] [AddCommGroup G] [SMul F G] [AddCommGroup M] [SMul F M] {Φ : Type} [FunLike Φ M G] [AddMonoidHomClass Φ M G] [MulActionHomClass Φ F M G] (φ : Φ)

namespace DrvNat

theorem statics (n : ℕ) (g h : M) : DrvNat (F := F) φ (allocateStaticsForVerifier n (φ g) (φ h)) (allocateStaticsForVerifier n g h) := by
  unfold allocateStaticsForVerifier
  have e : (staticValues n : List F).map (fun x => commitScalar (φ g) (φ h) x (0 : F)) = ((staticValues n : List F).map fun x => commitScalar g h x (0 : F)).map φ := by
    rw [List.map_map]
    exact List.map_congr_left fun x _ => by simp [commitScalar]
  rw [e]
  exact commits φ _

theorem boundedNum [IntRep F] (env : Env F G) (debug : Bool) (lower upper n : ℕ) (coms : List M) :
    DrvNat φ (verifyBoundedNum env debug lower upper n (coms.map φ)) (verifyBoundedNum (env.pull φ) debug lower upper n coms) := by
  unfold verifyBoundedNum
  refine take _ _ fun l => bind (commits φ l) fun vars => ?_
  split
  · exact gadget φ env _
  · exact lift _

theorem nonZeroVal (env : Env F G) (coms : List M) : DrvNat φ (verifyNonZeroVal env (coms.map φ)) (verifyNonZeroVal (env.pull φ) coms) := by
  unfold verifyNonZeroVal
  refine take _ _ fun l => bind (commits φ l) fun vars => ?_
  split
  · exact gadget φ env _
  · exact lift _

theorem setMembership (env : Env F G) (set : List F) (coms : List M) : DrvNat φ (verifySetMembership env set (coms.map φ)) (verifySetMembership (env.pull φ) set coms) := by
  unfold verifySetMembership
  refine take _ _ fun l => bind (commits φ l) fun vars => ?_
  split
  · exact gadget φ env _
  · exact lift _

theorem setNonMembership (env : Env F G) (set : List F) (coms : List M) : DrvNat φ (verifySetNonMembership env set (coms.map φ)) (verifySetNonMembership (env.pull φ) set coms) := by
  unfold verifySetNonMembership
  refine take _ _ fun l => bind (commits φ l) fun vars => ?_
  split
  · exact gadget φ env _
  · exact lift _

theorem mimcPreimage (env : Env F G) (image : F) (constants : List F) (rounds : ℕ) (coms : List M) :
    DrvNat φ (verifyMimcPreimage env image constants rounds (coms.map φ)) (verifyMimcPreimage (env.pull φ) image constants rounds coms) := by
  unfold verifyMimcPreimage
  refine take _ _ fun l => bind (commits φ l) fun vars => ?_
  split
  · exact gadget φ env _
  · exact lift _

theorem preimage (env : Env F G) (k : ℕ) (g h : M) (c : List Var → List Var → Prog1 F Unit) (coms : List M) : DrvNat φ (verifyPreimage env k (φ g) (φ h) c (coms.map φ)) (verifyPreimage (env.pull φ) k g h c coms) := by
  unfold verifyPreimage
  exact take _ _ fun l => bind (commits φ l) fun vars => bind (statics φ 1 g h) fun _ => gadget φ env _

theorem inclusion (env : Env F G) (g h : M) (c : Var → Alloc F → List Var → List Var → Prog1 F Unit) (coms : List M) : DrvNat φ (verifyInclusion env (φ g) (φ h) c (coms.map φ)) (verifyInclusion (env.pull φ) g h c coms) := by
  unfold verifyInclusion
  match coms with
  | [] => exact lift _
  | [_] => exact lift _
  | a :: b :: l =>
    refine bind (commits φ [a, b]) fun vars => bind (commits φ l) fun _ => bind (statics φ 1 g h) fun _ => ?_
    split
    · exact gadget φ env _
    · exact lift _

theorem commitVals' (depth : ℕ) : ∀ (n : ℕ) (coms : List M), DrvNat (F := F) φ (commitVals depth n (coms.map φ)) (commitVals depth n coms) := by
  intro n
  induction n with
  | zero => intro coms; exact pure _
  | succ n ih =>
    intro coms
    unfold commitVals
    refine take _ _ fun l => bind (commits φ l) fun vars => ?_
    rw [← List.map_drop]
    refine take _ _ fun l => bind (commits φ l) fun vars => ?_
    rw [← List.map_drop]
    exact bind (ih _) fun _ => pure _

theorem randomizer [ByteRep F] (env : Env F G) (t : SparseTree F) (db : HashDb (List F)) (indices : List F) (depth : ℕ) (p : PoseidonParams F) (sbox : SboxType) (g h : M) (coms : List M) :
    DrvNat φ (verifyRandomizer env t db indices depth p sbox (φ g) (φ h) (coms.map φ)) (verifyRandomizer (env.pull φ) t db indices depth p sbox g h coms) := by
  unfold verifyRandomizer
  refine take _ _ fun l => bind (commits φ l) fun vars => ?_
  rw [← List.map_drop]
  refine bind (commitVals' φ _ _ _) fun _ => bind (statics φ 1 g h) fun _ => ?_
  split
  · exact gadget φ env _
  · exact lift _

end DrvNat
end Bp
