import Verif.Model.Gadgets.Poseidon
import Verif.Lemmas.Gadgets.Count

set_option linter.unusedSectionVars false
set_option linter.unusedSimpArgs false

/-! # Poseidon: the constraints compute the permutation -/

namespace Bp
variable {F G : Type} [Field F] [AddCommGroup G] [Module F G]
variable {C C' : Type} {rnd : Bool} {env : Env F G} {σ : Assignment F} {onSpec : C → Prover F G → Prover F G}

theorem res_bind_ok {α β : Type} {r : Res α} {f : α → Res β} {b : β} : (r >>= f) = .ok b ↔ ∃ a, r = .ok a ∧ f a = .ok b := by
  cases r with
  | error e => simp [Bind.bind, Except.bind]
  | ok a => simp [Bind.bind, Except.bind]

theorem res_pure_ok {α : Type} {a b : α} : (pure a : Res α) = .ok b ↔ a = b := by simp [Pure.pure, Except.pure]

theorem idx_get {α : Type} {xs : List α} {i : ℕ} {a : α} : idx xs i = .ok a ↔ xs[i]? = some a := by
  unfold idx
  cases xs[i]? <;> simp [Res.panic]

/-! ## Lengths -/

theorem sboxLayer_length {f : F → Res F} {keys : List F} : ∀ {xs : List F} {off : ℕ} {ys : List F}, sboxLayer f keys xs off = .ok ys → ys.length = xs.length
  | [], _, _, h => by simp only [sboxLayer, Except.ok.injEq] at h; rw [← h]
  | x :: xs, off, ys, h => by
    simp only [sboxLayer, res_bind_ok, res_pure_ok] at h
    obtain ⟨k, -, y, -, zs, h3, rfl⟩ := h
    simp [sboxLayer_length h3]

theorem partialLayer_length {f : F → Res F} {keys : List F} : ∀ {xs : List F} {off : ℕ} {ys : List F}, partialLayer f keys xs off = .ok ys → ys.length = xs.length
  | [], _, _, h => by simp [partialLayer, Res.panic] at h
  | [x], off, ys, h => by
    simp only [partialLayer, res_bind_ok, res_pure_ok] at h
    obtain ⟨k, -, y, -, rfl⟩ := h
    simp
  | x :: x' :: xs, off, ys, h => by
    simp only [partialLayer, res_bind_ok, res_pure_ok] at h
    obtain ⟨k, -, zs, h3, rfl⟩ := h
    simp [partialLayer_length h3]

theorem linearColumns_length {mds : List (List F)} {st : List F} : ∀ {n i : ℕ} {ys : List F}, linearColumns mds st i n = .ok ys → ys.length = n
  | 0, _, _, h => by simp only [linearColumns, Except.ok.injEq] at h; rw [← h]; rfl
  | n + 1, i, ys, h => by
    simp only [linearColumns, res_bind_ok, res_pure_ok] at h
    obtain ⟨y, -, zs, h3, rfl⟩ := h
    simp [linearColumns_length h3]

theorem linearLayer_length {mds : List (List F)} {st ys : List F} (h : linearLayer mds st = .ok ys) : ys.length = st.length := linearColumns_length h

theorem permRounds_length {layer : List F → ℕ → Res (List F)} (hl : ∀ xs off ys, layer xs off = .ok ys → ys.length = xs.length) {mds : List (List F)} {w : ℕ} :
    ∀ {n : ℕ} {xs : List F} {off : ℕ} {r : List F × ℕ}, permRounds layer mds w n xs off = .ok r → r.1.length = xs.length
  | 0, xs, off, r, h => by simp only [permRounds, Except.ok.injEq] at h; rw [← h]
  | n + 1, xs, off, r, h => by
    simp only [permRounds, res_bind_ok] at h
    obtain ⟨a, h1, b, h2, h3⟩ := h
    rw [permRounds_length hl h3, linearLayer_length h2, hl _ _ _ h1]

theorem permWith_out_length {f : F → Res F} {p : PoseidonParams F} {xs ys : List F} (h : permWith f p xs = .ok ys) : ys.length = xs.length := by
  unfold permWith at h
  split at h
  · simp [Res.panic] at h
  · simp only [res_bind_ok, res_pure_ok] at h
    obtain ⟨a, h1, b, h2, c, h3, rfl⟩ := h
    rw [permRounds_length (fun _ _ _ h => sboxLayer_length h) h3, permRounds_length (fun _ _ _ h => partialLayer_length h) h2, permRounds_length (fun _ _ _ h => sboxLayer_length h) h1]

/-! ## Soundness -/

section sound
variable {f : F → Res F} {synth : LC F → F → Prog F C rnd Var}

theorem VS.sboxLayer (hs : ∀ l k, VS env σ (synth l k) (fun v => f (l.value σ + k) = .ok (σ.val v))) (keys : List F) : ∀ (xs : List (LC F)) (off : ℕ),
    VS env σ (sboxLayerC synth keys xs off) (fun ys => ys.length = xs.length ∧ Bp.sboxLayer f keys (xs.map (LC.value σ)) off = .ok (ys.map (LC.value σ)))
  | [], off => VS.pure ⟨rfl, rfl⟩
  | x :: xs, off => by
    refine VS.bind (VS.index _ _) fun k hk => VS.bind (hs x k) fun y hy => VS.bind (VS.sboxLayer hs keys xs (off + 1)) fun ys hys => VS.pure ⟨by simp [hys.1], ?_⟩
    simp only [List.map_cons, Bp.sboxLayer, res_bind_ok, res_pure_ok]
    exact ⟨k, idx_get.mpr hk, _, hy, _, hys.2, by rw [LC.value_ofVar]⟩

theorem VS.partialLayer (hs : ∀ l k, VS env σ (synth l k) (fun v => f (l.value σ + k) = .ok (σ.val v))) (keys : List F) : ∀ (xs : List (LC F)) (off : ℕ), xs ≠ [] →
    VS env σ (partialLayerC synth keys xs off) (fun ys => ys.length = xs.length ∧ Bp.partialLayer f keys (xs.map (LC.value σ)) off = .ok (ys.map (LC.value σ)))
  | [], off, h => absurd rfl h
  | [x], off, _ => by
    refine VS.bind (VS.index _ _) fun k hk => VS.bind (hs x k) fun y hy => VS.pure ⟨rfl, ?_⟩
    simp only [List.map_cons, List.map_nil, Bp.partialLayer, res_bind_ok, res_pure_ok]
    exact ⟨k, idx_get.mpr hk, _, hy, by rw [LC.value_ofVar]⟩
  | x :: x' :: xs, off, _ => by
    refine VS.bind (VS.index _ _) fun k hk => VS.bind (VS.partialLayer hs keys (x' :: xs) (off + 1) (by simp)) fun ys hys => VS.pure ⟨by simp [hys.1], ?_⟩
    simp only [List.map_cons, Bp.partialLayer, res_bind_ok, res_pure_ok]
    exact ⟨k, idx_get.mpr hk, _, hys.2, by rw [LC.value_add, LC.value_ofScalar]⟩

theorem VS.mdsColumn (mds : List (List F)) (i : ℕ) : ∀ (xs : List (LC F)) (j : ℕ) (acc : LC F),
    VS env σ (mdsColumnC mds i j xs acc : Prog F C rnd _) (fun l => Bp.mdsColumn mds i j (xs.map (LC.value σ)) (acc.value σ) = .ok (l.value σ))
  | [], j, acc => VS.pure rfl
  | x :: xs, j, acc => by
    refine VS.bind (VS.index _ _) fun row hr => VS.bind (VS.index _ _) fun m hm => (VS.mdsColumn mds i xs (j + 1) _).mono fun l hl => ?_
    simp only [List.map_cons, Bp.mdsColumn, res_bind_ok]
    refine ⟨row, idx_get.mpr hr, m, idx_get.mpr hm, ?_⟩
    rw [LC.value_add, LC.value_smul] at hl
    rw [mul_comm (x.value σ)]
    exact hl

theorem VS.linearColumns (mds : List (List F)) (st : List (LC F)) : ∀ (n i : ℕ),
    VS env σ (linearColumnsC mds st i n : Prog F C rnd _) (fun ls => Bp.linearColumns mds (st.map (LC.value σ)) i n = .ok (ls.map (LC.value σ)))
  | 0, i => VS.pure rfl
  | n + 1, i => by
    refine VS.bind (VS.mdsColumn mds i st 0 _) fun y hy => VS.bind (VS.linearColumns mds st n (i + 1)) fun ys hys => VS.pure ?_
    simp only [Bp.linearColumns, res_bind_ok, res_pure_ok]
    exact ⟨_, hy, _, hys, rfl⟩

theorem VS.linearLayer (mds : List (List F)) (st : List (LC F)) :
    VS env σ (linearLayerC mds st : Prog F C rnd _) (fun ls => ls.length = st.length ∧ Bp.linearLayer mds (st.map (LC.value σ)) = .ok (ls.map (LC.value σ))) :=
  (VS.linearColumns mds st _ _).mono fun ls h => by
    refine ⟨?_, by rw [Bp.linearLayer, List.length_map]; exact h⟩
    have := linearColumns_length h
    simpa using this

theorem VS.simplifyAll : ∀ (xs : List (LC F)),
    VS env σ (simplifyAll xs : Prog F C rnd _) (fun ls => ls.length = xs.length ∧ ls.map (LC.value σ) = xs.map (LC.value σ))
  | [] => VS.pure ⟨rfl, rfl⟩
  | x :: xs => VS.bind (VS.simp x) fun y hy => VS.bind (VS.simplifyAll xs) fun ys hys => VS.pure ⟨by simp [hys.1], by simp [hys.2, hy]⟩

theorem VS.permRounds {layer : List F → ℕ → Res (List F)} {layerC : List (LC F) → ℕ → Prog F C rnd (List (LC F))} {post : List (LC F) → Prog F C rnd (List (LC F))}
    {mds : List (List F)} {w : ℕ}
    (hl : ∀ xs off, xs.length = w → VS env σ (layerC xs off) (fun ys => ys.length = xs.length ∧ layer (xs.map (LC.value σ)) off = .ok (ys.map (LC.value σ))))
    (hp : ∀ xs, VS env σ (post xs) (fun ls => ls.length = xs.length ∧ ls.map (LC.value σ) = xs.map (LC.value σ))) : ∀ (n : ℕ) (st : List (LC F)) (off : ℕ), st.length = w →
    VS env σ (permRoundsC layerC post mds w n st off) (fun q => q.1.length = w ∧ Bp.permRounds layer mds w n (st.map (LC.value σ)) off = .ok (q.1.map (LC.value σ), q.2))
  | 0, st, off, h => VS.pure ⟨h, rfl⟩
  | n + 1, st, off, h => by
    refine VS.bind (hl st off h) fun a ⟨ha, ha'⟩ => VS.bind (VS.linearLayer mds a) fun b ⟨hb, hb'⟩ => VS.bind (hp b) fun c ⟨hc, hc'⟩ =>
      (VS.permRounds hl hp n c (off + w) (by omega)).mono fun q ⟨hq, hq'⟩ => ⟨hq, ?_⟩
    simp only [Bp.permRounds, res_bind_ok]
    exact ⟨_, ha', _, hb', by rw [← hc']; exact hq'⟩

/-- If each S-box is constrained to be `f`, the constraints force the outputs to be the permutation of the inputs. -/
theorem VS.perm (hs : ∀ l k, VS env σ (synth l k) (fun v => f (l.value σ + k) = .ok (σ.val v))) (p : PoseidonParams F) (hw : p.width ≠ 0 ∨ p.partialRounds = 0) (input : List (LC F)) :
    VS env σ (permConstraintsWith synth p input) (fun ls => permWith f p (input.map (LC.value σ)) = .ok (ls.map (LC.value σ))) := by
  unfold permConstraintsWith
  split
  · exact VS.panic
  · rename_i hlen
    push Not at hlen
    have hpost : ∀ xs : List (LC F), VS env σ (Pure.pure xs : Prog F C rnd _) (fun ls => ls.length = xs.length ∧ ls.map (LC.value σ) = xs.map (LC.value σ)) := fun xs => VS.pure ⟨rfl, rfl⟩
    refine VS.bind (VS.permRounds (fun xs off _ => VS.sboxLayer hs _ xs off) hpost _ _ _ hlen) ?_
    rintro ⟨st, off⟩ ⟨h1, h1'⟩
    have mid : VS env σ (permRoundsC (partialLayerC synth p.roundKeys) Bp.simplifyAll p.mds p.width p.partialRounds st off)
        (fun q => q.1.length = p.width ∧ Bp.permRounds (Bp.partialLayer f p.roundKeys) p.mds p.width p.partialRounds (st.map (LC.value σ)) off = .ok (q.1.map (LC.value σ), q.2)) := by
      by_cases h0 : p.width = 0
      · rw [hw.resolve_left (by simp [h0])]
        exact VS.pure ⟨h1, rfl⟩
      · exact VS.permRounds (fun xs off hx => VS.partialLayer hs _ xs off (by rintro rfl; exact h0 hx.symm)) VS.simplifyAll _ _ _ h1
    refine VS.bind mid ?_
    rintro ⟨st2, off2⟩ ⟨h2, h2'⟩
    refine VS.bind (VS.permRounds (fun xs off _ => VS.sboxLayer hs _ xs off) hpost _ _ _ h2) ?_
    rintro ⟨st3, off3⟩ ⟨h3, h3'⟩
    refine VS.pure ?_
    unfold permWith
    rw [if_neg (by simpa using hlen)]
    simp only [res_bind_ok, res_pure_ok]
    exact ⟨_, h1', _, h2', _, h3', rfl⟩

end sound

/-! ## Completeness -/

section complete
variable {f : F → Res F} {synth : LC F → F → Prog F C rnd Var} {pd : Option ℕ}

/-- Whenever the S-box on values succeeds, the prover's S-box succeeds with its result. -/
def SynthOk (env : Env F G) (onSpec : C → Prover F G → Prover F G) (pd : Option ℕ) (f : F → Res F) (synth : LC F → F → Prog F C rnd Var) : Prop :=
  ∀ (p : Prover F G) (l : LC F) (x k y : F), p.Good → p.pending = pd → p.Has l x → f (x + k) = .ok y → PS env onSpec p (synth l k) (fun v p' => p.Next p' ∧ p'.HasV v y)

theorem Prover.has_all_next {p p' : Prover F G} (h : p.Good) (n : p.Next p') {ls : List (LC F)} {xs : List F} (hf : List.Forall₂ p.Has ls xs) : List.Forall₂ p'.Has ls xs :=
  hf.imp fun _ _ hx => hx.next h n

theorem PS.sboxLayer (hs : SynthOk env onSpec pd f synth) (keys : List F) : ∀ {ls : List (LC F)} {xs : List F} {off : ℕ} {ys : List F} {p : Prover F G}, p.Good → p.pending = pd →
    List.Forall₂ p.Has ls xs → Bp.sboxLayer f keys xs off = .ok ys → PS env onSpec p (sboxLayerC synth keys ls off) (fun ms p' => p.Next p' ∧ List.Forall₂ p'.Has ms ys)
  | _, _, off, ys, p, hg, hp, .nil, h => by
    simp only [Bp.sboxLayer, Except.ok.injEq] at h
    exact PS.pure ⟨.refl hg, h ▸ .nil⟩
  | _, _, off, ys, p, hg, hp, .cons (a := l) (b := x) (l₁ := ls) (l₂ := xs) h1 h2, h => by
    simp only [Bp.sboxLayer, res_bind_ok, res_pure_ok] at h
    obtain ⟨k, hk, y, hy, zs, hz, rfl⟩ := h
    refine PS.bind (PS.index (idx_get.mp hk)) ?_
    rintro k p ⟨rfl, rfl⟩
    refine PS.bind (hs p l x k y hg hp h1 hy) ?_
    rintro v p1 ⟨n1, hv⟩
    refine PS.bind (PS.sboxLayer hs keys n1.good (by rw [n1.pending, hp]) (Prover.has_all_next hg n1 h2) hz) ?_
    rintro ms p2 ⟨n2, hms⟩
    exact PS.pure ⟨n1.trans n2, .cons (.ofVar (hv.next n1.good n2)) hms⟩

theorem PS.partialLayer (hs : SynthOk env onSpec pd f synth) (keys : List F) : ∀ {ls : List (LC F)} {xs : List F} {off : ℕ} {ys : List F} {p : Prover F G}, p.Good → p.pending = pd →
    List.Forall₂ p.Has ls xs → Bp.partialLayer f keys xs off = .ok ys → PS env onSpec p (partialLayerC synth keys ls off) (fun ms p' => p.Next p' ∧ List.Forall₂ p'.Has ms ys)
  | _, _, off, ys, p, hg, hp, .nil, h => by
    simp [Bp.partialLayer, Res.panic] at h
  | _, _, off, ys, p, hg, hp, .cons (a := l) (b := x) h1 .nil, h => by
    simp only [Bp.partialLayer, res_bind_ok, res_pure_ok] at h
    obtain ⟨k, hk, y, hy, rfl⟩ := h
    refine PS.bind (PS.index (idx_get.mp hk)) ?_
    rintro k p ⟨rfl, rfl⟩
    refine PS.bind (hs p l x k y hg hp h1 hy) ?_
    rintro v p1 ⟨n1, hv⟩
    exact PS.pure ⟨n1, .cons (.ofVar hv) .nil⟩
  | _, _, off, ys, p, hg, hp, .cons (a := l) (b := x) h1 (.cons (a := l') (b := x') (l₁ := ls) (l₂ := xs) h2 h3), h => by
    simp only [Bp.partialLayer, res_bind_ok, res_pure_ok] at h
    obtain ⟨k, hk, zs, hz, rfl⟩ := h
    refine PS.bind (PS.index (idx_get.mp hk)) ?_
    rintro k p ⟨rfl, rfl⟩
    refine PS.bind (PS.partialLayer hs keys hg hp (.cons h2 h3) hz) ?_
    rintro ms p2 ⟨n2, hms⟩
    exact PS.pure ⟨n2, .cons ((h1.next hg n2).add (.ofScalar k)) hms⟩

theorem PS.mdsColumn {mds : List (List F)} {i : ℕ} {p : Prover F G} : ∀ {ls : List (LC F)} {xs : List F} {j : ℕ} {acc : LC F} {a y : F},
    List.Forall₂ p.Has ls xs → p.Has acc a → Bp.mdsColumn mds i j xs a = .ok y → PS env onSpec p (mdsColumnC mds i j ls acc : Prog F C rnd _) (fun l p' => p' = p ∧ p.Has l y)
  | _, _, j, acc, a, y, .nil, ha, h => by
    simp only [Bp.mdsColumn, Except.ok.injEq] at h
    exact PS.pure ⟨rfl, h ▸ ha⟩
  | _, _, j, acc, a, y, .cons (a := l) (b := x) h1 h2, ha, h => by
    simp only [Bp.mdsColumn, res_bind_ok] at h
    obtain ⟨row, hr, m, hm, h⟩ := h
    refine PS.bind (PS.index (idx_get.mp hr)) ?_
    rintro row p ⟨rfl, rfl⟩
    refine PS.bind (PS.index (idx_get.mp hm)) ?_
    rintro m p ⟨rfl, rfl⟩
    exact PS.mdsColumn h2 ((ha.add (.smul m h1)).congr (by rw [mul_comm])) h

theorem PS.linearColumns {mds : List (List F)} {p : Prover F G} {ls : List (LC F)} {xs : List F} (hf : List.Forall₂ p.Has ls xs) : ∀ {n i : ℕ} {ys : List F},
    Bp.linearColumns mds xs i n = .ok ys → PS env onSpec p (linearColumnsC mds ls i n : Prog F C rnd _) (fun ms p' => p' = p ∧ List.Forall₂ p.Has ms ys)
  | 0, i, ys, h => by
    simp only [Bp.linearColumns, Except.ok.injEq] at h
    exact PS.pure ⟨rfl, h ▸ .nil⟩
  | n + 1, i, ys, h => by
    simp only [Bp.linearColumns, res_bind_ok, res_pure_ok] at h
    obtain ⟨y, hy, zs, hz, rfl⟩ := h
    refine PS.bind (PS.mdsColumn hf .nil hy) ?_
    rintro l p1 ⟨rfl, hl⟩
    refine PS.bind (PS.linearColumns hf hz) ?_
    rintro ms p2 ⟨rfl, hms⟩
    exact PS.pure ⟨rfl, .cons hl hms⟩

theorem PS.simplifyAll : ∀ {ls : List (LC F)} {xs : List F} {p : Prover F G}, p.Good → List.Forall₂ p.Has ls xs →
    PS env onSpec p (simplifyAll ls : Prog F C rnd _) (fun ms p' => p.Next p' ∧ List.Forall₂ p'.Has ms xs)
  | _, _, p, hg, .nil => PS.pure ⟨.refl hg, .nil⟩
  | _, _, p, hg, .cons h1 h2 => by
    refine PS.bind (PS.simp hg h1) ?_
    rintro m p1 ⟨n1, hm⟩
    refine PS.bind (PS.simplifyAll n1.good (Prover.has_all_next hg n1 h2)) ?_
    rintro ms p2 ⟨n2, hms⟩
    exact PS.pure ⟨n1.trans n2, .cons (hm.next n1.good n2) hms⟩

theorem PS.permRounds {layer : List F → ℕ → Res (List F)} {layerC : List (LC F) → ℕ → Prog F C rnd (List (LC F))} {post : List (LC F) → Prog F C rnd (List (LC F))}
    {mds : List (List F)} {w : ℕ}
    (hl : ∀ (ls : List (LC F)) (xs : List F) (off : ℕ) (ys : List F) (p : Prover F G), p.Good → p.pending = pd → List.Forall₂ p.Has ls xs → layer xs off = .ok ys →
      PS env onSpec p (layerC ls off) (fun ms p' => p.Next p' ∧ List.Forall₂ p'.Has ms ys))
    (hpo : ∀ (ls : List (LC F)) (xs : List F) (p : Prover F G), p.Good → List.Forall₂ p.Has ls xs → PS env onSpec p (post ls) (fun ms p' => p.Next p' ∧ List.Forall₂ p'.Has ms xs)) :
    ∀ {n : ℕ} {ls : List (LC F)} {xs : List F} {off : ℕ} {r : List F × ℕ} {p : Prover F G}, p.Good → p.pending = pd → List.Forall₂ p.Has ls xs →
      Bp.permRounds layer mds w n xs off = .ok r → PS env onSpec p (permRoundsC layerC post mds w n ls off) (fun q p' => p.Next p' ∧ List.Forall₂ p'.Has q.1 r.1 ∧ q.2 = r.2)
  | 0, ls, xs, off, r, p, hg, hp, hf, h => by
    simp only [Bp.permRounds, Except.ok.injEq] at h
    exact PS.pure ⟨.refl hg, h ▸ hf, h ▸ rfl⟩
  | n + 1, ls, xs, off, r, p, hg, hp, hf, h => by
    simp only [Bp.permRounds, res_bind_ok] at h
    obtain ⟨a, ha, b, hb, h⟩ := h
    refine PS.bind (hl _ _ _ _ _ hg hp hf ha) ?_
    rintro la p1 ⟨n1, h1⟩
    have hlen : la.length = a.length := h1.length_eq
    refine PS.bind (f := fun b => post b >>= fun c => permRoundsC layerC post mds w n c (off + w)) (PS.linearColumns h1 (n := la.length) (by rw [hlen]; exact hb)) ?_
    rintro lb p2 ⟨rfl, h2⟩
    refine PS.bind (hpo _ _ _ n1.good h2) ?_
    rintro lc p3 ⟨n3, h3⟩
    refine (PS.permRounds hl hpo n3.good (by rw [n3.pending, n1.pending, hp]) h3 h).mono ?_
    rintro q p4 ⟨n4, h4⟩
    exact ⟨(n1.trans n3).trans n4, h4⟩

theorem PS.perm (hs : SynthOk env onSpec pd f synth) {pp : PoseidonParams F} {p : Prover F G} (hg : p.Good) (hp : p.pending = pd) {ls : List (LC F)} {xs ys : List F}
    (hf : List.Forall₂ p.Has ls xs) (h : permWith f pp xs = .ok ys) :
    PS env onSpec p (permConstraintsWith synth pp ls) (fun ms p' => p.Next p' ∧ List.Forall₂ p'.Has ms ys) := by
  unfold permWith at h
  have hl := hf.length_eq
  unfold permConstraintsWith
  rw [hl]
  split at h
  · simp [Res.panic] at h
  · rename_i hc
    rw [if_neg hc]
    simp only [res_bind_ok, res_pure_ok] at h
    obtain ⟨⟨a, oa⟩, ha, ⟨b, ob⟩, hb, ⟨c, oc⟩, hc, rfl⟩ := h
    have hpost : ∀ (ls : List (LC F)) (xs : List F) (p : Prover F G), p.Good → List.Forall₂ p.Has ls xs →
        PS env onSpec p (Pure.pure ls : Prog F C rnd _) (fun ms p' => p.Next p' ∧ List.Forall₂ p'.Has ms xs) := fun _ _ _ hg hf => PS.pure ⟨.refl hg, hf⟩
    refine PS.bind (PS.permRounds (fun _ _ o _ _ => PS.sboxLayer hs _ (off := o)) hpost hg hp hf ha) ?_
    rintro ⟨la, oa'⟩ p1 ⟨n1, h1, rfl⟩
    refine PS.bind (PS.permRounds (fun _ _ o _ _ => PS.partialLayer hs _ (off := o)) (fun _ _ _ => PS.simplifyAll) n1.good (by rw [n1.pending, hp]) h1 hb) ?_
    rintro ⟨lb, ob'⟩ p2 ⟨n2, h2, rfl⟩
    refine PS.bind (PS.permRounds (fun _ _ o _ _ => PS.sboxLayer hs _ (off := o)) hpost n2.good (by rw [n2.pending, n1.pending, hp]) h2 hc) ?_
    rintro ⟨lc, oc'⟩ p3 ⟨n3, h3, rfl⟩
    exact PS.pure ⟨(n1.trans n2).trans n3, h3⟩

end complete

/-! ## Lock-step -/

section same
variable {RC : C → C' → Prop} {synth : LC F → F → Prog F C rnd Var} {synth' : LC F → F → Prog F C' rnd Var}

/-- The S-box makes the same calls on equivalent inputs. -/
def SynthSame (RC : C → C' → Prop) (synth : LC F → F → Prog F C rnd Var) (synth' : LC F → F → Prog F C' rnd Var) : Prop :=
  ∀ l l' k, LC.Equiv l l' → Prog.Same RC Eq (synth l k) (synth' l' k)

theorem Prog.Same.sboxLayer (hs : SynthSame RC synth synth') (keys : List F) : ∀ {ls ls' : List (LC F)} {off : ℕ}, List.Forall₂ LC.Equiv ls ls' →
    Prog.Same RC (List.Forall₂ LC.Equiv) (sboxLayerC synth keys ls off) (sboxLayerC synth' keys ls' off)
  | _, _, off, .nil => .pure .nil
  | _, _, off, .cons h1 h2 => by
    refine .bind (.index_self _ _) ?_
    rintro k _ rfl
    refine .bind (hs _ _ k h1) ?_
    rintro v _ rfl
    exact .bind (Prog.Same.sboxLayer hs keys h2) fun a b hab => .pure (.cons .rfl' hab)

theorem Prog.Same.partialLayer (hs : SynthSame RC synth synth') (keys : List F) : ∀ {ls ls' : List (LC F)} {off : ℕ}, List.Forall₂ LC.Equiv ls ls' →
    Prog.Same RC (List.Forall₂ LC.Equiv) (partialLayerC synth keys ls off) (partialLayerC synth' keys ls' off)
  | _, _, off, .nil => .pure .nil
  | _, _, off, .cons h1 .nil => by
    refine .bind (.index_self _ _) ?_
    rintro k _ rfl
    refine .bind (hs _ _ k h1) ?_
    rintro v _ rfl
    exact .pure (.cons .rfl' .nil)
  | _, _, off, .cons h1 (.cons h2 h3) => by
    refine .bind (.index_self _ _) ?_
    rintro k _ rfl
    exact .bind (Prog.Same.partialLayer hs keys (.cons h2 h3)) fun a b hab => .pure (.cons (h1.add .rfl') hab)

theorem Prog.Same.mdsColumn (mds : List (List F)) (i : ℕ) : ∀ {ls ls' : List (LC F)} {j : ℕ} {a a' : LC F}, List.Forall₂ LC.Equiv ls ls' → a.Equiv a' →
    Prog.Same RC LC.Equiv (mdsColumnC mds i j ls a : Prog F C rnd _) (mdsColumnC mds i j ls' a')
  | _, _, j, a, a', .nil, ha => .pure ha
  | _, _, j, a, a', .cons h1 h2, ha => by
    refine .bind (.index_self _ _) ?_
    rintro row _ rfl
    refine .bind (.index_self _ _) ?_
    rintro m _ rfl
    exact Prog.Same.mdsColumn mds i h2 (ha.add (h1.smul m))

theorem Prog.Same.linearColumns (mds : List (List F)) {ls ls' : List (LC F)} (hf : List.Forall₂ LC.Equiv ls ls') : ∀ {n i : ℕ},
    Prog.Same RC (List.Forall₂ LC.Equiv) (linearColumnsC mds ls i n : Prog F C rnd _) (linearColumnsC mds ls' i n)
  | 0, i => .pure .nil
  | n + 1, i => .bind (.mdsColumn mds i hf .rfl') fun a b hab => .bind (Prog.Same.linearColumns mds hf) fun as bs h => .pure (.cons hab h)

theorem Prog.Same.simplifyAll : ∀ {ls ls' : List (LC F)}, List.Forall₂ LC.Equiv ls ls' →
    Prog.Same RC (List.Forall₂ LC.Equiv) (simplifyAll ls : Prog F C rnd _) (simplifyAll ls')
  | _, _, .nil => .pure .nil
  | _, _, .cons h1 h2 => .bind (.simp h1) fun a b hab => .bind (Prog.Same.simplifyAll h2) fun as bs h => .pure (.cons hab h)

theorem Prog.Same.permRounds {layer : List (LC F) → ℕ → Prog F C rnd (List (LC F))} {layer' : List (LC F) → ℕ → Prog F C' rnd (List (LC F))}
    {post : List (LC F) → Prog F C rnd (List (LC F))} {post' : List (LC F) → Prog F C' rnd (List (LC F))} {mds : List (List F)} {w : ℕ}
    (hl : ∀ (ls ls' : List (LC F)) (off : ℕ), List.Forall₂ LC.Equiv ls ls' → Prog.Same RC (List.Forall₂ LC.Equiv) (layer ls off) (layer' ls' off))
    (hp : ∀ (ls ls' : List (LC F)), List.Forall₂ LC.Equiv ls ls' → Prog.Same RC (List.Forall₂ LC.Equiv) (post ls) (post' ls')) :
    ∀ {n : ℕ} {ls ls' : List (LC F)} {off : ℕ}, List.Forall₂ LC.Equiv ls ls' →
      Prog.Same RC (fun a b => List.Forall₂ LC.Equiv a.1 b.1 ∧ a.2 = b.2) (permRoundsC layer post mds w n ls off) (permRoundsC layer' post' mds w n ls' off)
  | 0, ls, ls', off, h => .pure ⟨h, rfl⟩
  | n + 1, ls, ls', off, h => .bind (hl _ _ _ h) fun a b hab => .bind (by unfold linearLayerC; rw [hab.length_eq]; exact .linearColumns mds hab) fun c d hcd =>
      .bind (hp _ _ hcd) fun e g heg => Prog.Same.permRounds hl hp heg

theorem Prog.Same.perm (hs : SynthSame RC synth synth') (p : PoseidonParams F) {ls ls' : List (LC F)} (hf : List.Forall₂ LC.Equiv ls ls') :
    Prog.Same RC (List.Forall₂ LC.Equiv) (permConstraintsWith synth p ls) (permConstraintsWith synth' p ls') := by
  unfold permConstraintsWith
  rw [hf.length_eq]
  split
  · exact .panic
  · refine .bind (.permRounds (fun _ _ o => .sboxLayer hs _ (off := o)) (fun _ _ => .pure) hf) ?_
    rintro ⟨a, _⟩ ⟨b, o⟩ ⟨h1, rfl⟩
    refine .bind (.permRounds (fun _ _ o => .partialLayer hs _ (off := o)) (fun _ _ => .simplifyAll) h1) ?_
    rintro ⟨a, _⟩ ⟨b, o⟩ ⟨h2, rfl⟩
    refine .bind (.permRounds (fun _ _ o => .sboxLayer hs _ (off := o)) (fun _ _ => .pure) h2) ?_
    rintro ⟨a, _⟩ ⟨b, o⟩ ⟨h3, rfl⟩
    exact .pure h3

end same

/-! ## Gates -/

section count
variable {synth : LC F → F → Prog F C rnd Var} {pd : Option ℕ} {c : ℕ}

theorem PCQ.sboxLayer (hs : ∀ l k, PC pd (synth l k) c) (keys : List F) : ∀ (ls : List (LC F)) (off : ℕ),
    PCQ pd (sboxLayerC synth keys ls off) (c * ls.length) (fun ms => ms.length = ls.length)
  | [], off => PCQ.pure rfl
  | l :: ls, off => by
    refine (PCQ.bind (PC.index _ _).q fun k _ => PCQ.bind (hs l k).q fun v _ => PCQ.bind (PCQ.sboxLayer hs keys ls (off + 1)) fun ms hms => PCQ.pure ?_).congr ?_
    · simp [hms]
    · simp; ring

theorem PCQ.partialLayer (hs : ∀ l k, PC pd (synth l k) c) (keys : List F) : ∀ (ls : List (LC F)) (off : ℕ), ls ≠ [] →
    PCQ pd (partialLayerC synth keys ls off) c (fun ms => ms.length = ls.length)
  | [], off, h => absurd rfl h
  | [l], off, _ => by
    refine (PCQ.bind (PC.index _ _).q fun k _ => PCQ.bind (hs l k).q fun v _ => PCQ.pure ?_).congr ?_
    · simp
    · simp
  | l :: l' :: ls, off, _ => by
    refine (PCQ.bind (PC.index _ _).q fun k _ => PCQ.bind (PCQ.partialLayer hs keys (l' :: ls) (off + 1) (by simp)) fun ms hms => PCQ.pure ?_).congr (by simp)
    simp [hms]

theorem PC.mdsColumn (mds : List (List F)) (i : ℕ) : ∀ (ls : List (LC F)) (j : ℕ) (acc : LC F), PC pd (mdsColumnC mds i j ls acc : Prog F C rnd _) 0
  | [], j, acc => PC.pure _
  | l :: ls, j, acc => (PC.bind (PC.index _ _) fun row => PC.bind (PC.index _ _) fun m => PC.mdsColumn mds i ls (j + 1) _).congr rfl

theorem PCQ.linearColumns (mds : List (List F)) (ls : List (LC F)) : ∀ (n i : ℕ), PCQ pd (linearColumnsC mds ls i n : Prog F C rnd _) 0 (fun ms => ms.length = n)
  | 0, i => PCQ.pure rfl
  | n + 1, i => (PCQ.bind (PC.mdsColumn mds i ls 0 _).q fun y _ => PCQ.bind (PCQ.linearColumns mds ls n (i + 1)) fun ys hys => PCQ.pure (by simp [hys])).congr rfl

theorem PCQ.simplifyAll : ∀ (ls : List (LC F)), PCQ pd (simplifyAll ls : Prog F C rnd _) 0 (fun ms => ms.length = ls.length)
  | [] => PCQ.pure rfl
  | l :: ls => (PCQ.bind (PC.simp _).q fun y _ => PCQ.bind (PCQ.simplifyAll ls) fun ys hys => PCQ.pure (by simp [hys])).congr rfl

theorem PCQ.permRounds {layer : List (LC F) → ℕ → Prog F C rnd (List (LC F))} {post : List (LC F) → Prog F C rnd (List (LC F))} {mds : List (List F)} {w m : ℕ}
    (hl : ∀ ls off, ls.length = w → PCQ pd (layer ls off) m (fun ms => ms.length = ls.length)) (hp : ∀ ls, PCQ pd (post ls) 0 (fun ms => ms.length = ls.length)) :
    ∀ (n : ℕ) (ls : List (LC F)) (off : ℕ), ls.length = w → PCQ pd (permRoundsC layer post mds w n ls off) (n * m) (fun q => q.1.length = w)
  | 0, ls, off, h => by rw [Nat.zero_mul]; exact PCQ.pure h
  | n + 1, ls, off, h => (PCQ.bind (hl ls off h) fun a ha => PCQ.bind (f := fun b => post b >>= fun c => permRoundsC layer post mds w n c (off + w)) (PCQ.linearColumns mds a a.length 0)
      fun b hb => PCQ.bind (hp b) fun c hc => PCQ.permRounds hl hp n c (off + w) (by omega)).congr (by ring)

/-- The number of gates of one permutation whose S-box takes `c` gates. -/
def permGates (c : ℕ) (p : PoseidonParams F) : ℕ := c * (p.width * (p.fullRoundsBeginning + p.fullRoundsEnd) + p.partialRounds)

theorem PCQ.perm (hs : ∀ l k, PC pd (synth l k) c) (p : PoseidonParams F) (hw : p.width ≠ 0 ∨ p.partialRounds = 0) (ls : List (LC F)) :
    PCQ pd (permConstraintsWith synth p ls) (permGates c p) (fun ms => ms.length = p.width) := by
  unfold permConstraintsWith
  split
  · exact PCQ.panic _ _ _
  · rename_i hlen
    push Not at hlen
    have hfull : ∀ (ls : List (LC F)) off, ls.length = p.width → PCQ pd (sboxLayerC synth p.roundKeys ls off) (c * p.width) (fun ms => ms.length = ls.length) :=
      fun ls off h => (PCQ.sboxLayer hs _ ls off).congr (by rw [h])
    have hmid : ∀ (ls : List (LC F)) off, ls.length = p.width →
        PCQ pd (permRoundsC (partialLayerC synth p.roundKeys) Bp.simplifyAll p.mds p.width p.partialRounds ls off) (p.partialRounds * c) (fun q => q.1.length = p.width) := by
      intro ls off h
      by_cases h0 : p.width = 0
      · rw [hw.resolve_left (by simp [h0])]
        rw [Nat.zero_mul]; exact PCQ.pure h
      · exact PCQ.permRounds (fun ls off h => PCQ.partialLayer hs _ ls off (by rintro rfl; exact h0 h.symm)) PCQ.simplifyAll _ _ _ h
    refine (PCQ.bind (PCQ.permRounds hfull (fun _ => PCQ.pure rfl) _ _ _ hlen) ?_).congr
      (show p.fullRoundsBeginning * (c * p.width) + (p.partialRounds * c + (p.fullRoundsEnd * (c * p.width) + 0)) = permGates c p by unfold permGates; ring)
    rintro ⟨a, oa⟩ ha
    refine PCQ.bind (hmid a oa ha) ?_
    rintro ⟨b, ob⟩ hb
    refine PCQ.bind (PCQ.permRounds hfull (fun _ => PCQ.pure rfl) _ _ _ hb) ?_
    rintro ⟨d, od⟩ hd
    exact PCQ.pure hd

end count

/-! ## The cube and quint S-boxes -/

theorem VS.cube (hg : σ.Gates) (l : LC F) (k : F) : VS env σ (synthesizeCube l k : Prog F C rnd _) (fun v => (.ok (SboxType.cube.apply (l.value σ + k)) : Res F) = .ok (σ.val v)) := by
  refine VS.bind (VS.mul hg _ _) ?_
  rintro ⟨i, _, sqr⟩ ⟨h1, _, h2⟩
  refine VS.bind (VS.mul hg _ _) ?_
  rintro ⟨_, _, cu⟩ ⟨_, _, h3⟩
  refine VS.pure ?_
  simp only [LC.value_ofVar, LC.value_add, LC.value_ofScalar] at *
  rw [h3, h2, h1, SboxType.apply]
  congr 1; ring

theorem VS.quint (hg : σ.Gates) (l : LC F) (k : F) : VS env σ (synthesizeQuint l k : Prog F C rnd _) (fun v => (.ok (SboxType.quint.apply (l.value σ + k)) : Res F) = .ok (σ.val v)) := by
  refine VS.bind (VS.mul hg _ _) ?_
  rintro ⟨i, _, sqr⟩ ⟨h1, _, h2⟩
  refine VS.bind (VS.mul hg _ _) ?_
  rintro ⟨_, _, qr⟩ ⟨_, _, h3⟩
  refine VS.bind (VS.mul hg _ _) ?_
  rintro ⟨_, _, qi⟩ ⟨_, _, h4⟩
  refine VS.pure ?_
  simp only [LC.value_ofVar, LC.value_add, LC.value_ofScalar] at *
  rw [h4, h3, h2, h1, SboxType.apply]
  congr 1; ring

theorem synthOk_cube (pd : Option ℕ) : SynthOk env onSpec pd (fun x => .ok (SboxType.cube.apply x)) (synthesizeCube : LC F → F → Prog F C rnd Var) := by
  intro p l x k y hg _ hl hy
  have hlk := hl.add (Prover.Has.ofScalar k)
  refine PS.bind (PS.mul hg hlk hlk) ?_
  rintro ⟨i, _, sqr⟩ p1 ⟨n1, h1, _, h2⟩
  refine PS.bind (PS.mul n1.good (.ofVar h2) (.ofVar h1)) ?_
  rintro ⟨_, _, cu⟩ p2 ⟨n2, _, _, h3⟩
  refine PS.pure ⟨n1.trans n2, h3.congr ?_⟩
  simp only [Except.ok.injEq, SboxType.apply] at hy
  rw [← hy]; ring

theorem synthOk_quint (pd : Option ℕ) : SynthOk env onSpec pd (fun x => .ok (SboxType.quint.apply x)) (synthesizeQuint : LC F → F → Prog F C rnd Var) := by
  intro p l x k y hg _ hl hy
  have hlk := hl.add (Prover.Has.ofScalar k)
  refine PS.bind (PS.mul hg hlk hlk) ?_
  rintro ⟨i, _, sqr⟩ p1 ⟨n1, h1, _, h2⟩
  refine PS.bind (PS.mul n1.good (.ofVar h2) (.ofVar h2)) ?_
  rintro ⟨_, _, qr⟩ p2 ⟨n2, _, _, h3⟩
  refine PS.bind (PS.mul n2.good (.ofVar h3) (.ofVar (h1.next n1.good n2))) ?_
  rintro ⟨_, _, qi⟩ p3 ⟨n3, _, _, h4⟩
  refine PS.pure ⟨(n1.trans n2).trans n3, h4.congr ?_⟩
  simp only [Except.ok.injEq, SboxType.apply] at hy
  rw [← hy]; ring

theorem synthSame_cube {RC : C → C' → Prop} : SynthSame RC (synthesizeCube : LC F → F → Prog F C rnd Var) synthesizeCube := by
  intro l l' k h
  refine Prog.Same.bind (.mul (h.add .rfl') (h.add .rfl')) ?_
  rintro ⟨_, _, _⟩ _ rfl
  refine Prog.Same.bind (.mul .rfl' .rfl') ?_
  rintro ⟨_, _, _⟩ _ rfl
  exact .pure rfl

theorem synthSame_quint {RC : C → C' → Prop} : SynthSame RC (synthesizeQuint : LC F → F → Prog F C rnd Var) synthesizeQuint := by
  intro l l' k h
  refine Prog.Same.bind (.mul (h.add .rfl') (h.add .rfl')) ?_
  rintro ⟨_, _, _⟩ _ rfl
  refine Prog.Same.bind (.mul .rfl' .rfl') ?_
  rintro ⟨_, _, _⟩ _ rfl
  refine Prog.Same.bind (.mul .rfl' .rfl') ?_
  rintro ⟨_, _, _⟩ _ rfl
  exact .pure rfl

theorem PC.cube {pd : Option ℕ} (l : LC F) (k : F) : PC pd (synthesizeCube l k : Prog F C rnd _) 2 :=
  PC.bind (k := 1) (l := 1) (PC.mul _ _) fun _ => PC.bind (k := 1) (l := 0) (PC.mul _ _) fun _ => PC.pure _

theorem PC.quint {pd : Option ℕ} (l : LC F) (k : F) : PC pd (synthesizeQuint l k : Prog F C rnd _) 3 :=
  PC.bind (k := 1) (l := 2) (PC.mul _ _) fun _ => PC.bind (k := 1) (l := 1) (PC.mul _ _) fun _ => PC.bind (k := 1) (l := 0) (PC.mul _ _) fun _ => PC.pure _

end Bp
