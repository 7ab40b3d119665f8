import Verif.Lemmas.Gadgets.Zip

set_option linter.unusedSectionVars false
set_option linter.unusedSimpArgs false

/-! # Counting gates when the number depends on intermediate results -/

namespace Bp
variable {F : Type} [Field F]
variable {C : Type} {rnd : Bool} {α β : Type} {pd : Option ℕ}

/-- Started with pending gate `pd`, `c` ends with the same pending gate, `k` more gates and a result satisfying `Q`. -/
def PCQ (pd : Option ℕ) (c : Prog F C rnd α) (k : ℕ) (Q : α → Prop) : Prop :=
  ∀ (G : Type) [AddCommGroup G] [SMul F G] (env : Env F G) (onSpec : C → Prover F G → Prover F G),
    (∀ cb p, (onSpec cb p).pending = p.pending ∧ (onSpec cb p).aL = p.aL) →
    ∀ p a p', p.pending = pd → Prover.run env onSpec c p = .ok (a, p') → p'.pending = pd ∧ p'.aL.length = p.aL.length + k ∧ Q a

theorem PC.q {c : Prog F C rnd α} {k : ℕ} (h : PC pd c k) : PCQ pd c k (fun _ => True) :=
  fun G _ _ env onSpec ho p a p' hp hr => ⟨(h G env onSpec ho p a p' hp hr).1, (h G env onSpec ho p a p' hp hr).2, trivial⟩

theorem PCQ.pc {c : Prog F C rnd α} {k : ℕ} {Q : α → Prop} (h : PCQ pd c k Q) : PC pd c k :=
  fun G _ _ env onSpec ho p a p' hp hr => ⟨(h G env onSpec ho p a p' hp hr).1, (h G env onSpec ho p a p' hp hr).2.1⟩

theorem PCQ.bind {c : Prog F C rnd α} {f : α → Prog F C rnd β} {k l : ℕ} {Q : α → Prop} {R : β → Prop} (h1 : PCQ pd c k Q) (h2 : ∀ a, Q a → PCQ pd (f a) l R) :
    PCQ pd (c >>= f) (k + l) R := by
  intro G _ _ env onSpec ho p b p' hp h
  rw [Prog.bind_eq, Prover.run_bind] at h
  cases hc : Prover.run env onSpec c p with
  | error e => rw [hc] at h; simp at h
  | ok q =>
    obtain ⟨a, p1⟩ := q
    rw [hc] at h
    obtain ⟨h3, h4, h5⟩ := h1 G env onSpec ho p a p1 hp hc
    obtain ⟨h6, h7, h8⟩ := h2 a h5 G env onSpec ho p1 b p' h3 h
    exact ⟨h6, by omega, h8⟩

theorem PCQ.ret {a : α} {Q : α → Prop} (h : Q a) : PCQ pd (.ret a : Prog F C rnd α) 0 Q := by
  intro G _ _ env onSpec ho p b p' hp hr
  simp only [Prover.run, Except.ok.injEq, Prod.mk.injEq] at hr
  rw [← hr.2, ← hr.1]; exact ⟨hp, rfl, h⟩
theorem PCQ.pure {a : α} {Q : α → Prop} (h : Q a) : PCQ pd (pure a : Prog F C rnd α) 0 Q := PCQ.ret h
theorem PCQ.err (e) (k : ℕ) (Q : α → Prop) : PCQ pd (.err e : Prog F C rnd α) k Q := by
  intro G _ _ env onSpec ho p b p' hp h; simp [Prover.run, Res.err] at h
theorem PCQ.panic (e) (k : ℕ) (Q : α → Prop) : PCQ pd (.panic e : Prog F C rnd α) k Q := by
  intro G _ _ env onSpec ho p b p' hp h; simp [Prover.run, Res.panic] at h
theorem PCQ.congr {c : Prog F C rnd α} {k l : ℕ} {Q : α → Prop} (h : PCQ pd c k Q) (e : k = l) : PCQ pd c l Q := e ▸ h
theorem PCQ.mono {c : Prog F C rnd α} {k : ℕ} {Q R : α → Prop} (h : PCQ pd c k Q) (hQ : ∀ a, Q a → R a) : PCQ pd c k R :=
  fun G _ _ env onSpec ho p a p' hp hr => ⟨(h G env onSpec ho p a p' hp hr).1, (h G env onSpec ho p a p' hp hr).2.1, hQ _ (h G env onSpec ho p a p' hp hr).2.2⟩

end Bp
