import Verif.Spec.Opaque
import Verif.Proof.Join
import Verif.Spec.Names
/-
Induction VI: simulation.  Two contexts whose user code and memory correspond up to a relation
`T` on spans give runs that correspond up to `T`, for expressions that differ only in names.
-/

namespace Tok3n

variable {α β A A' B B' : Type} {T : Span → Span → Prop} {U : Val → Val → Prop}

/-! ### Like values -/

section values

theorem Likes.length {vs ws : List Val} (h : Likes T U vs ws) : vs.length = ws.length := by
  induction vs generalizing ws with
  | nil => simp only [Likes] at h; subst h; rfl
  | cons v vs ih =>
    simp only [Likes] at h
    obtain ⟨w, ws', rfl, -, h⟩ := h
    simp [ih h]

theorem Likes.nil : Likes T U [] [] := by simp [Likes]
theorem Likes.cons {v w : Val} {vs ws : List Val} (h : Like T U v w) (h' : Likes T U vs ws) :
    Likes T U (v :: vs) (w :: ws) := by simp only [Likes]; exact ⟨w, ws, rfl, h, h'⟩
theorem Likes.one {v w : Val} (h : Like T U v w) : Likes T U [v] [w] := .cons h .nil

theorem Likes.append {vs ws vs' ws' : List Val} (h : Likes T U vs ws) (h' : Likes T U vs' ws') :
    Likes T U (vs ++ vs') (ws ++ ws') := by
  induction vs generalizing ws with
  | nil => simp only [Likes] at h; subst h; exact h'
  | cons v vs ih =>
    simp only [Likes] at h
    obtain ⟨w, ws'', rfl, hv, h⟩ := h
    exact .cons hv (ih h)

theorem Likes.set {vs ws : List Val} (h : Likes T U vs ws) (i : Nat) {v w : Val} (hv : Like T U v w) :
    Likes T U (vs.set i v) (ws.set i w) := by
  induction vs generalizing ws i with
  | nil => simp only [Likes] at h; subst h; exact .nil
  | cons x vs ih =>
    simp only [Likes] at h
    obtain ⟨y, ws', rfl, hx, h⟩ := h
    cases i with
    | zero => exact .cons hv h
    | succ i => exact .cons hx (ih h i)

theorem Likes.replicate {v w : Val} (h : Like T U v w) (n : Nat) :
    Likes T U (List.replicate n v) (List.replicate n w) := by
  induction n with
  | zero => exact .nil
  | succ n ih => exact .cons h ih

end values

/-! ### Corresponding runs -/

/-- `m` has not returned, or `m'` returns correspondingly. -/
def Below (T : Span → Span → Prop) (U : Val → Val → Prop) (Q : A → B → Prop) (m : Run A) (m' : Run B) : Prop :=
  match m, m' with
  | .diverge, _ => True
  | .done l (.ok a), .done l' (.ok b) => LikeLog T U l l' ∧ Q a b
  | .done l (.err e), .done l' (.err e') => LikeLog T U l l' ∧ e = e'
  | _, _ => False

section runs
variable {Q Q' : A → A' → Prop}

theorem Below.diverge {m' : Run A'} : Below T U Q .diverge m' := by simp [Below]
theorem Below.pure {a : A} {a' : A'} (h : Q a a') : Below T U Q (M.pure a) (M.pure a') :=
  ⟨.nil, h⟩
theorem Below.fail (e : Err) : Below T U Q (M.fail e : Run A) (M.fail e : Run A') := ⟨.nil, rfl⟩

theorem Below.after {l l' : List Call} (hl : LikeLog T U l l') {m : Run A} {m' : Run A'}
    (h : Below T U Q m m') : Below T U Q (m.after l) (m'.after l') := by
  cases m with
  | diverge => exact .diverge
  | done l1 r =>
    cases m' with
    | diverge => cases r <;> exact h.elim
    | done l2 r' =>
      cases r <;> cases r'
      · exact ⟨List.rel_append hl h.1, h.2⟩
      · exact h.elim
      · exact h.elim
      · exact ⟨List.rel_append hl h.1, h.2⟩

theorem Below.bind {QB : B → B' → Prop} {m : Run A} {m' : Run A'} {f : A → Run B} {f' : A' → Run B'}
    (h : Below T U Q m m') (hf : ∀ a a', Q a a' → Below T U QB (f a) (f' a')) :
    Below T U QB (M.bind m f) (M.bind m' f') := by
  cases m with
  | diverge => exact .diverge
  | done l r =>
    cases m' with
    | diverge => cases r <;> exact h.elim
    | done l' r' =>
      cases r <;> cases r'
      · exact (hf _ _ h.2).after h.1
      · exact h.elim
      · exact h.elim
      · exact h

theorem Below.mono {m : Run A} {m' : Run A'} (h : Below T U Q m m') (hq : ∀ a a', Q a a' → Q' a a') :
    Below T U Q' m m' := by
  cases m with
  | diverge => exact .diverge
  | done l r =>
    cases m' with
    | diverge => cases r <;> exact h.elim
    | done l' r' =>
      cases r <;> cases r'
      · exact ⟨h.1, hq _ _ h.2⟩
      · exact h.elim
      · exact h.elim
      · exact h

theorem Below.ite {c c' : Prop} [Decidable c] [Decidable c'] (hc : c ↔ c') {m n : Run A} {m' n' : Run A'}
    (h : c → Below T U Q m m') (h' : ¬c → Below T U Q n n') :
    Below T U Q (if c then m else n) (if c' then m' else n') := by
  by_cases h1 : c
  · rw [if_pos h1, if_pos (hc.mp h1)]; exact h h1
  · rw [if_neg h1, if_neg (fun h => h1 (hc.mpr h))]; exact h' h1

theorem Below.le {m : Run A} {m' m'' : Run A'} (h : Below T U Q m m') (hle : m'.le m'') :
    Below T U Q m m'' := by
  cases m with
  | diverge => exact .diverge
  | done l r =>
    cases m' with
    | diverge => cases r <;> exact h.elim
    | done l' r' => rw [hle.done rfl]; exact h

theorem Below.ge {m m0 : Run A} {m' : Run A'} (h : Below T U Q m m') (hle : m0.le m) :
    Below T U Q m0 m' := by
  cases hm : m0 with
  | diverge => exact .diverge
  | done l r => rw [hle.done hm] at h; exact h

theorem Below.lim {m : Nat → Run A} {a : Run A} {m' : Run A'} (h : Lim m a)
    (hm : ∀ n, Below T U Q (m n) m') : Below T U Q a m' := by
  cases ha : a with
  | diverge => exact .diverge
  | done l r =>
    obtain ⟨n, hn⟩ := (h.iff l r).1 ha
    have := hm n
    rwa [hn] at this

end runs

/-! ### Corresponding contexts -/

/-- Two contexts that correspond up to `T`, apart from their callbacks. -/
structure Simulates (T : Span → Span → Prop) (U : Val → Val → Prop) (C C' : Ctx α β) : Prop where
  eqv : C.eqv = C'.eqv
  fnRet : C.fnRet = C'.fnRet
  constTy : C.constTy = C'.constTy
  ctorOk : C.ctorOk = C'.ctorOk
  dflt : ∀ k, OptRel (Like T U) (C.userDefault k) (C'.userDefault k)
  conv : ∀ a b, OptRel (fun f g => ∀ v w, Like T U v w → Like T U (f v) (g w)) (C.conv a b) (C'.conv a b)
  convOpt : ∀ a b, OptRel (fun f g => ∀ v w, OptRel (Like T U) v w → Like T U (f v) (g w)) (C.convOpt a b) (C'.convOpt a b)
  toSpan : ∀ k, OptRel (fun f g => ∀ v w, Like T U v w → T (f v) (g w)) (C.userSpan k) (C'.userSpan k)
  customTy : ∀ k, (C.custom k).ty = (C'.custom k).ty
  body : ∀ k, (C.custom k).body.unnamed = (C'.custom k).body.unnamed
  null : T Span.default Span.default
  len : ∀ {s s'}, T s s' → s.len = s'.len
  read : ∀ {s s'}, T s s' → ∀ i < s.len, (s.ptr.read C.mem i : Run β) = s'.ptr.read C'.mem i
  add : ∀ {s s'}, T s s' → ∀ n ≤ s.len,
    Below T U (fun p p' => T ⟨p, s.len - n⟩ ⟨p', s.len - n⟩) (s.ptr.add C.mem n) (s'.ptr.add C'.mem n)
  take : ∀ {s s'}, T s s' → ∀ n ≤ s.len, T ⟨s.ptr, n⟩ ⟨s'.ptr, n⟩
  adj : ∀ {j j' o o'}, T j j' → T o o' → j.len ≠ 0 → o.len ≠ 0 →
    Below T U (fun b b' => b = b' ∧ (b = true → T ⟨j.ptr, j.len + o.len⟩ ⟨j'.ptr, j'.len + o'.len⟩))
      (adjacent C j o) (adjacent C' j' o')

/-- The function mapped over a value corresponds. -/
def FnAlike (T : Span → Span → Prop) (U : Val → Val → Prop) (C C' : Ctx α β) (f : Fn) : Prop :=
  ∀ args args', Likes T U args args' → Below T U (Like T U) (invoke C f args) (invoke C' f args')

/-- The predicate corresponds. -/
def PredAlike (T : Span → Span → Prop) (U : Val → Val → Prop) (C C' : Ctx α β) (f : Fn) : Prop :=
  ∀ args args', Likes T U args args' →
    Below T U (fun v w => C.truthy v = C'.truthy w) (invoke C f args) (invoke C' f args')

/-- The callbacks `p.parse` may run correspond. -/
structure CallsAlike (T : Span → Span → Prop) (U : Val → Val → Prop) (C C' : Ctx α β) (p : Parser α) : Prop where
  map : ∀ q f, ParseReach C p (.map q f) → FnAlike T U C C' f
  filter : ∀ q f, ParseReach C p (.filter q f) → PredAlike T U C C' f

theorem CallsAlike.child {C C' : Ctx α β} {p q : Parser α} (h : CallsAlike T U C C' p)
    (hc : ParseChild C p q) : CallsAlike T U C C' q :=
  ⟨fun r f hr => h.map r f (.step hc hr), fun r f hr => h.filter r f (.step hc hr)⟩

section
variable {C C' : Ctx α β}

/-! ### Types -/

mutual
theorem defaultVal_alike (h : Simulates T U C C') : ∀ t, OptRel (Like T U) (defaultVal C t) (defaultVal C' t)
  | .void => by simp [defaultVal, OptRel, Like]
  | .span => by simpa [defaultVal, OptRel, Like] using h.null
  | .vec _ => by simp [defaultVal, OptRel, Like, Likes]
  | .arr t n => by
    have := defaultVal_alike h t
    simp only [defaultVal]
    cases h1 : defaultVal C t <;> cases h2 : defaultVal C' t <;> rw [h1, h2] at this
    · trivial
    · exact this.elim
    · exact this.elim
    · show Like T U _ _
      simp only [Like]
      exact ⟨_, rfl, .replicate this n⟩
  | .opt _ => by simp [defaultVal, OptRel, Like]
  | .tup ts => by
    have := defaultVals_alike h ts
    simp only [defaultVal]
    cases h1 : defaultVals C ts <;> cases h2 : defaultVals C' ts <;> rw [h1, h2] at this
    · trivial
    · exact this.elim
    · exact this.elim
    · show Like T U _ _
      simp only [Like]
      exact ⟨_, rfl, this⟩
  | .var ts => by
    have := defaultHead_alike h ts
    simp only [defaultVal]
    cases h1 : defaultHead C ts <;> cases h2 : defaultHead C' ts <;> rw [h1, h2] at this
    · trivial
    · exact this.elim
    · exact this.elim
    · show Like T U _ _
      simp only [Like]
      exact ⟨_, rfl, this⟩
  | .pair a b => by
    have ha := defaultVal_alike h a
    have hb := defaultVal_alike h b
    simp only [defaultVal]
    cases h1 : defaultVal C a <;> cases h2 : defaultVal C' a <;> rw [h1, h2] at ha
    · trivial
    · exact ha.elim
    · exact ha.elim
    cases h3 : defaultVal C b <;> cases h4 : defaultVal C' b <;> rw [h3, h4] at hb
    · trivial
    · exact hb.elim
    · exact hb.elim
    · show Like T U _ _
      simp only [Like]
      exact ⟨_, _, rfl, ha, hb⟩
  | .user k => by simpa only [defaultVal] using h.dflt k
theorem defaultVals_alike (h : Simulates T U C C') :
    ∀ ts, OptRel (Likes T U) (defaultVals C ts) (defaultVals C' ts)
  | [] => by simp [defaultVals, OptRel, Likes]
  | t :: ts => by
    have ha := defaultVal_alike h t
    have hb := defaultVals_alike h ts
    simp only [defaultVals]
    cases h1 : defaultVal C t <;> cases h2 : defaultVal C' t <;> rw [h1, h2] at ha
    · trivial
    · exact ha.elim
    · exact ha.elim
    cases h3 : defaultVals C ts <;> cases h4 : defaultVals C' ts <;> rw [h3, h4] at hb
    · trivial
    · exact hb.elim
    · exact hb.elim
    · exact Likes.cons ha hb
theorem defaultHead_alike (h : Simulates T U C C') :
    ∀ ts, OptRel (Like T U) (defaultHead C ts) (defaultHead C' ts)
  | [] => by simp [defaultHead, OptRel]
  | t :: ts => by simpa only [defaultHead] using defaultVal_alike h t
end

theorem OptRel.isSome {Q : A → A' → Prop} {a : Option A} {b : Option A'} (h : OptRel Q a b) :
    a.isSome = b.isSome := by
  cases a <;> cases b <;> first | rfl | exact h.elim

theorem fnTy_alike (h : Simulates T U C C') (f : Fn) (ts : List Ty) : fnTy C f ts = fnTy C' f ts := by
  induction f generalizing ts with
  | user k => simp [fnTy, h.fnRet]
  | apply f ih =>
    simp only [fnTy]
    split
    · split
      · exact ih _
      · rfl
    · rfl
  | const k => simp [fnTy, h.constTy]
  | construct t => simp [fnTy, h.ctorOk]
  | deflt t => simp only [fnTy, (defaultVal_alike h t).isSome]

mutual
theorem resultFor_unnamed (h : Simulates T U C C') : ∀ p : Parser α, resultFor C' p.unnamed = resultFor C p
  | .anyOf _ | .noneOf _ | .allOf _ | .anything | .epsilon => by simp [Parser.unnamed, resultFor]
  | .choice ps => by simp [Parser.unnamed, resultFor, resultsFor_unnamed h ps]
  | .sequence ps => by simp [Parser.unnamed, resultFor, resultsFor_unnamed h ps]
  | .maybe p => by simp [Parser.unnamed, resultFor, resultFor_unnamed h p]
  | .exactly p n => by simp [Parser.unnamed, resultFor, resultFor_unnamed h p]
  | .oneOrMore p => by simp [Parser.unnamed, resultFor, resultFor_unnamed h p]
  | .zeroOrMore p => by simp [Parser.unnamed, resultFor, resultFor_unnamed h p]
  | .delimit p d => by simp [Parser.unnamed, resultFor, resultFor_unnamed h p, resultFor_unnamed h d]
  | .ignore p => by simp [Parser.unnamed, resultFor]
  | .complete p => by simp [Parser.unnamed, resultFor, resultFor_unnamed h p]
  | .join p => by simp [Parser.unnamed, resultFor]
  | .map p f => by simp [Parser.unnamed, resultFor, resultFor_unnamed h p, mapTy, fnTy_alike h]
  | .filter p f => by simp [Parser.unnamed, resultFor, resultFor_unnamed h p]
  | .named p n => by simp [Parser.unnamed, resultFor, resultFor_unnamed h p]
  | .custom k => by simp [Parser.unnamed, resultFor, h.customTy]
theorem resultsFor_unnamed (h : Simulates T U C C') :
    ∀ ps : List (Parser α), resultsFor C' (Parser.unnamedAll ps) = resultsFor C ps
  | [] => by simp [Parser.unnamedAll, resultsFor]
  | p :: ps => by simp [Parser.unnamedAll, resultsFor, resultFor_unnamed h p, resultsFor_unnamed h ps]
end

/-! ### Equal spans -/

mutual
theorem like_refl (hT : ∀ s, T s s) (hU : ∀ v, U v v) : ∀ v, Like T U v v
  | .unit => by simp [Like]
  | .span s => by simp [Like, hT]
  | .vec vs | .arr vs | .tup vs => by simp [Like, likes_refl hT hU vs]
  | .user _ _ vs => by simp [Like, hU]
  | .opt none => by simp [Like]
  | .opt (some v) => by simp [Like, like_refl hT hU v]
  | .var _ v => by simp [Like, like_refl hT hU v]
  | .pair a b => by simp [Like, like_refl hT hU a, like_refl hT hU b]
theorem likes_refl (hT : ∀ s, T s s) (hU : ∀ v, U v v) : ∀ vs, Likes T U vs vs
  | [] => .nil
  | v :: vs => .cons (like_refl hT hU v) (likes_refl hT hU vs)
end

mutual
theorem like_eq (hT : ∀ s s', T s s' → s = s') (hU : ∀ v w, U v w → v = w) : ∀ v w, Like T U v w → v = w
  | .unit, w, h => by simp only [Like] at h; exact h.symm
  | .span s, w, h => by
    simp only [Like] at h; obtain ⟨s', rfl, h⟩ := h; rw [hT _ _ h]
  | .vec vs, w, h | .arr vs, w, h | .tup vs, w, h => by
    simp only [Like] at h; obtain ⟨s', rfl, h⟩ := h; rw [likes_eq hT hU _ _ h]
  | .user _ _ vs, w, h => by
    simp only [Like] at h; obtain ⟨t', ws, rfl, h⟩ := h; exact hU _ _ h
  | .opt none, w, h => by simp only [Like] at h; exact h.symm
  | .opt (some v), w, h => by
    simp only [Like] at h; obtain ⟨s', rfl, h⟩ := h; rw [like_eq hT hU _ _ h]
  | .var _ v, w, h => by
    simp only [Like] at h; obtain ⟨s', rfl, h⟩ := h; rw [like_eq hT hU _ _ h]
  | .pair a b, w, h => by
    simp only [Like] at h; obtain ⟨a', b', rfl, h, h'⟩ := h; rw [like_eq hT hU _ _ h, like_eq hT hU _ _ h']
theorem likes_eq (hT : ∀ s s', T s s' → s = s') (hU : ∀ v w, U v w → v = w) : ∀ vs ws, Likes T U vs ws → vs = ws
  | [], ws, h => by simp only [Likes] at h; exact h.symm
  | v :: vs, ws, h => by
    simp only [Likes] at h; obtain ⟨w, ws', rfl, h, h'⟩ := h; rw [like_eq hT hU _ _ h, likes_eq hT hU _ _ h']
end

theorem likeLog_refl (hT : ∀ s, T s s) (hU : ∀ v, U v v) (l : List Call) : LikeLog T U l l :=
  List.forall₂_same.mpr fun _ _ => ⟨rfl, likes_refl hT hU _⟩

theorem likeLog_eq (hT : ∀ s s', T s s' → s = s') (hU : ∀ v w, U v w → v = w) {l l' : List Call} (h : LikeLog T U l l') : l = l' := by
  have : List.Forall₂ Eq l l' := h.imp fun c c' hc => by
    obtain ⟨f, a⟩ := c; obtain ⟨g, b⟩ := c'
    obtain ⟨h1, h2⟩ := hc
    simp only at h1 h2
    rw [h1, likes_eq hT hU _ _ h2]
  simpa using this

theorem Below.refl (hT : ∀ s, T s s) (hU : ∀ v, U v v) {Q : A → A → Prop} {m : Run A} (h : ∀ a, Q a a) :
    Below T U Q m m := by
  cases m with
  | diverge => exact .diverge
  | done l r => cases r <;> exact ⟨likeLog_refl hT hU l, by first | exact h _ | rfl⟩

theorem Simulates.names {C C' : Ctx α β} (hcc : ∃ c, C' = { C with custom := c })
    (hty : ∀ k, (C.custom k).ty = (C'.custom k).ty)
    (hb : ∀ k, (C.custom k).body.unnamed = (C'.custom k).body.unnamed) : Simulates Eq Eq C C' := by
  obtain ⟨c, rfl⟩ := hcc
  exact {
    eqv := rfl, fnRet := rfl, constTy := rfl, ctorOk := rfl
    dflt := fun k => by
      cases h : C.userDefault k with
      | none => simp [OptRel]
      | some v => simp [OptRel, like_refl]
    conv := fun a b => by
      cases h : C.conv a b with
      | none => simp [OptRel]
      | some v =>
        simp only [OptRel]
        intro v w h
        rw [like_eq (fun _ _ h => h) (fun _ _ h => h) v w h]
        exact like_refl (fun _ => rfl) (fun _ => rfl) _
    convOpt := fun a b => by
      cases h : C.convOpt a b with
      | none => simp [OptRel]
      | some f =>
        simp only [OptRel]
        intro v w h
        have : v = w := by
          cases v <;> cases w
          · rfl
          · exact h.elim
          · exact h.elim
          · rw [like_eq (fun _ _ h => h) (fun _ _ h => h) _ _ h]
        rw [this]
        exact like_refl (fun _ => rfl) (fun _ => rfl) _
    toSpan := fun k => by
      cases h : C.userSpan k with
      | none => simp [OptRel]
      | some v =>
        simp only [OptRel]
        intro v w h
        rw [like_eq (fun _ _ h => h) (fun _ _ h => h) v w h]
    customTy := hty, body := hb, null := rfl
    len := by rintro s s' rfl; rfl
    read := by rintro s s' rfl i -; rfl
    add := by rintro s s' rfl n -; exact .refl (fun _ => rfl) (fun _ => rfl) fun _ => rfl
    take := by rintro s s' rfl n -; rfl
    adj := by rintro j j' o o' rfl rfl - -; exact .refl (fun _ => rfl) (fun _ => rfl) fun _ => ⟨rfl, fun _ => rfl⟩ }

/-- the result type does not depend on names -/
theorem resultFor_alike (h : Simulates T U C C') {p q : Parser α} (hpq : p.unnamed = q.unnamed) :
    resultFor C p = resultFor C' q := by
  rw [← resultFor_unnamed h p, hpq,
    resultFor_unnamed (Simulates.names (C := C') ⟨_, rfl⟩ (fun _ => rfl) fun _ => rfl) q]

theorem resultsFor_alike (h : Simulates T U C C') {ps qs : List (Parser α)}
    (hpq : Parser.unnamedAll ps = Parser.unnamedAll qs) : resultsFor C ps = resultsFor C' qs := by
  rw [← resultsFor_unnamed h ps, hpq,
    resultsFor_unnamed (Simulates.names (C := C') ⟨_, rfl⟩ (fun _ => rfl) fun _ => rfl) qs]

end

/-! ### Bodies -/

/-- what a body needs of the parsers it calls -/
def BelowP (T : Span → Span → Prop) (U : Val → Val → Prop) (P P' : Sub) : Prop :=
  ∀ s s', T s s' → Below T U (LikeR T U) (P.parse s) (P'.parse s')

def BelowL (T : Span → Span → Prop) (U : Val → Val → Prop) (P P' : Sub) : Prop :=
  ∀ s s', T s s' → Below T U (LikeR T U) (P.look s) (P'.look s')

section
variable {C C' : Ctx α β} {P P' D D' : Sub}

theorem LikeR.hasValue {r r' : R} (h : LikeR T U r r') : r.hasValue = r'.hasValue := by
  obtain ⟨v, s⟩ := r; obtain ⟨v', s'⟩ := r'
  have := h.val
  cases v <;> cases v' <;> first | rfl | exact this.elim

theorem LikeR.not {r r' : R} (h : LikeR T U r r') : ((!r.hasValue) = true) ↔ ((!r'.hasValue) = true) := by
  rw [h.hasValue]

theorem LikeR.failure {s s' : Span} (h : T s s') : LikeR T U (R.failure s) (R.failure s') := ⟨trivial, h⟩
theorem LikeR.success {v w : Val} {s s' : Span} (hv : Like T U v w) (h : T s s') :
    LikeR T U (R.success v s) (R.success w s') := ⟨hv, h⟩
theorem LikeR.successVoid {s s' : Span} (h : T s s') : LikeR T U (R.successVoid s) (R.successVoid s') :=
  ⟨by simp [R.successVoid, Like], h⟩

theorem LikeR.deref {r r' : R} (h : LikeR T U r r') : Below T U (Like T U) r.deref r'.deref := by
  obtain ⟨v, s⟩ := r; obtain ⟨v', s'⟩ := r'
  have := h.val
  cases v <;> cases v'
  · exact .fail _
  · exact this.elim
  · exact this.elim
  · exact .pure this

theorem LikeR.build (t : Ty) {v w : Val} {s s' : Span} (hv : Like T U v w) (h : T s s') :
    LikeR T U (builderBuild t v s) (builderBuild t w s') := by
  simp only [builderBuild]
  split
  · exact .successVoid h
  · exact .success hv h

theorem builderInit_below (h : Simulates T U C C') (t : Ty) :
    Below T U (Like T U) (builderInit C t) (builderInit C' t) := by
  have := defaultVal_alike h t
  simp only [builderInit]
  cases h1 : defaultVal C t <;> cases h2 : defaultVal C' t <;> rw [h1, h2] at this
  · exact .fail _
  · exact this.elim
  · exact this.elim
  · exact .pure this

theorem builderAssign_below (t : Ty) {v w : Val} {r r' : R} (hv : Like T U v w) (hr : LikeR T U r r') :
    Below T U (Like T U) (builderAssign t v r) (builderAssign t w r') :=
  .ite Iff.rfl (fun _ => .pure hv) fun _ => hr.deref

theorem builderArrayAssign_below (t : Ty) {v w : Val} (i : Nat) {r r' : R} (hv : Like T U v w)
    (hr : LikeR T U r r') : Below T U (Like T U) (builderArrayAssign t v i r) (builderArrayAssign t w i r') := by
  refine .ite Iff.rfl (fun _ => .pure hv) fun _ => ?_
  cases v with
  | arr vs =>
    simp only [Like] at hv
    obtain ⟨ws, rfl, hv⟩ := hv
    refine .bind hr.deref fun x y hxy => .ite (by rw [hv.length]) (fun _ => .pure ?_) fun _ => .fail _
    simp only [Like]; exact ⟨_, rfl, hv.set i hxy⟩
  | opt o =>
    cases o with
    | none => simp only [Like] at hv; subst hv; exact .fail _
    | some o => simp only [Like] at hv; obtain ⟨_, rfl, -⟩ := hv; exact .fail _
  | unit => simp only [Like] at hv; subst hv; exact .fail _
  | pair a b => simp only [Like] at hv; obtain ⟨_, _, rfl, -⟩ := hv; exact .fail _
  | user => simp only [Like] at hv; obtain ⟨_, _, rfl, -⟩ := hv; exact .fail _
  | _ => simp only [Like] at hv; obtain ⟨_, rfl, -⟩ := hv; exact .fail _

theorem builderGetAssign_below (t : Ty) {v w : Val} (i : Nat) {r r' : R} (hv : Like T U v w)
    (hr : LikeR T U r r') : Below T U (Like T U) (builderGetAssign t v i r) (builderGetAssign t w i r') := by
  refine .ite Iff.rfl (fun _ => .pure hv) fun _ => ?_
  cases v with
  | tup vs =>
    simp only [Like] at hv
    obtain ⟨ws, rfl, hv⟩ := hv
    refine .bind hr.deref fun x y hxy => .ite (by rw [hv.length]) (fun _ => .pure ?_) fun _ => .fail _
    simp only [Like]; exact ⟨_, rfl, hv.set i hxy⟩
  | opt o =>
    cases o with
    | none => simp only [Like] at hv; subst hv; exact .fail _
    | some o => simp only [Like] at hv; obtain ⟨_, rfl, -⟩ := hv; exact .fail _
  | unit => simp only [Like] at hv; subst hv; exact .fail _
  | pair a b => simp only [Like] at hv; obtain ⟨_, _, rfl, -⟩ := hv; exact .fail _
  | user => simp only [Like] at hv; obtain ⟨_, _, rfl, -⟩ := hv; exact .fail _
  | _ => simp only [Like] at hv; obtain ⟨_, rfl, -⟩ := hv; exact .fail _

theorem builderEmplace_below (t : Ty) {v w : Val} {r r' : R} (hv : Like T U v w)
    (hr : LikeR T U r r') : Below T U (Like T U) (builderEmplace t v r) (builderEmplace t w r') := by
  refine .ite Iff.rfl (fun _ => .pure hv) fun _ => ?_
  have key : Below T U (Like T U)
      (M.bind r.deref fun v => M.pure (.opt (some v)) : Run Val)
      (M.bind r'.deref fun v => M.pure (.opt (some v))) :=
    .bind hr.deref fun x y hxy => .pure (by simp only [Like]; exact ⟨_, rfl, hxy⟩)
  cases v with
  | opt o =>
    cases o with
    | none => simp only [Like] at hv; subst hv; exact key
    | some o => simp only [Like] at hv; obtain ⟨_, rfl, -⟩ := hv; exact key
  | unit => simp only [Like] at hv; subst hv; exact .fail _
  | pair a b => simp only [Like] at hv; obtain ⟨_, _, rfl, -⟩ := hv; exact .fail _
  | user => simp only [Like] at hv; obtain ⟨_, _, rfl, -⟩ := hv; exact .fail _
  | _ => simp only [Like] at hv; obtain ⟨_, rfl, -⟩ := hv; exact .fail _

theorem builderInsertBack_below (t : Ty) {v w : Val} {r r' : R} (hv : Like T U v w)
    (hr : LikeR T U r r') : Below T U (Like T U) (builderInsertBack t v r) (builderInsertBack t w r') := by
  refine .ite Iff.rfl (fun _ => .pure hv) fun _ => ?_
  cases v with
  | vec vs =>
    simp only [Like] at hv
    obtain ⟨ws, rfl, hv⟩ := hv
    exact .bind hr.deref fun x y hxy => .pure (by
      simp only [Like]; exact ⟨_, rfl, hv.append (.one hxy)⟩)
  | opt o =>
    cases o with
    | none => simp only [Like] at hv; subst hv; exact .fail _
    | some o => simp only [Like] at hv; obtain ⟨_, rfl, -⟩ := hv; exact .fail _
  | unit => simp only [Like] at hv; subst hv; exact .fail _
  | pair a b => simp only [Like] at hv; obtain ⟨_, _, rfl, -⟩ := hv; exact .fail _
  | user => simp only [Like] at hv; obtain ⟨_, _, rfl, -⟩ := hv; exact .fail _
  | _ => simp only [Like] at hv; obtain ⟨_, rfl, -⟩ := hv; exact .fail _

/-- two alike values are both vectors or both not -/
theorem Like.vec_cases {v w : Val} (h : Like T U v w) :
    (∃ vs ws, v = .vec vs ∧ w = .vec ws ∧ Likes T U vs ws) ∨
      ((∀ vs, v ≠ .vec vs) ∧ ∀ ws, w ≠ .vec ws) := by
  cases v with
  | vec vs => simp only [Like] at h; obtain ⟨ws, rfl, h⟩ := h; exact .inl ⟨vs, ws, rfl, rfl, h⟩
  | opt o =>
    cases o with
    | none => simp only [Like] at h; subst h; exact .inr ⟨nofun, nofun⟩
    | some o => simp only [Like] at h; obtain ⟨_, rfl, -⟩ := h; exact .inr ⟨nofun, nofun⟩
  | unit => simp only [Like] at h; subst h; exact .inr ⟨nofun, nofun⟩
  | pair a b => simp only [Like] at h; obtain ⟨_, _, rfl, -⟩ := h; exact .inr ⟨nofun, nofun⟩
  | user => simp only [Like] at h; obtain ⟨_, _, rfl, -⟩ := h; exact .inr ⟨nofun, nofun⟩
  | _ => simp only [Like] at h; obtain ⟨_, rfl, -⟩ := h; exact .inr ⟨nofun, nofun⟩

theorem builderInsertBackFirst_below (t : Ty) {v w : Val} {r r' : R} (hv : Like T U v w)
    (hr : LikeR T U r r') :
    Below T U (Like T U) (builderInsertBackFirst t v r) (builderInsertBackFirst t w r') := by
  refine .ite Iff.rfl (fun _ => .pure hv) fun _ => ?_
  cases v with
  | pair a b =>
    simp only [Like] at hv
    obtain ⟨a', b', rfl, ha, hb⟩ := hv
    rcases ha.vec_cases with ⟨vs, ws, rfl, rfl, h⟩ | ⟨h1, h2⟩
    · exact .bind hr.deref fun x y hxy => .pure (by
        simp only [Like]; exact ⟨_, _, rfl, ⟨_, rfl, h.append (.one hxy)⟩, hb⟩)
    · cases a <;> first | exact absurd rfl (h1 _) | (cases a' <;> first | exact absurd rfl (h2 _) | exact .fail _)
  | opt o =>
    cases o with
    | none => simp only [Like] at hv; subst hv; exact .fail _
    | some o => simp only [Like] at hv; obtain ⟨_, rfl, -⟩ := hv; exact .fail _
  | unit => simp only [Like] at hv; subst hv; exact .fail _
  | user => simp only [Like] at hv; obtain ⟨_, _, rfl, -⟩ := hv; exact .fail _
  | _ => simp only [Like] at hv; obtain ⟨_, rfl, -⟩ := hv; exact .fail _

theorem builderInsertBackSecond_below (t : Ty) {v w : Val} {r r' : R} (hv : Like T U v w)
    (hr : LikeR T U r r') :
    Below T U (Like T U) (builderInsertBackSecond t v r) (builderInsertBackSecond t w r') := by
  refine .ite Iff.rfl (fun _ => .pure hv) fun _ => ?_
  cases v with
  | pair a b =>
    simp only [Like] at hv
    obtain ⟨a', b', rfl, ha, hb⟩ := hv
    rcases hb.vec_cases with ⟨vs, ws, rfl, rfl, h⟩ | ⟨h1, h2⟩
    · exact .bind hr.deref fun x y hxy => .pure (by
        simp only [Like]; exact ⟨_, _, rfl, ha, ⟨_, rfl, h.append (.one hxy)⟩⟩)
    · cases b <;> first | exact absurd rfl (h1 _) | (cases b' <;> first | exact absurd rfl (h2 _) | exact .fail _)
  | opt o =>
    cases o with
    | none => simp only [Like] at hv; subst hv; exact .fail _
    | some o => simp only [Like] at hv; obtain ⟨_, rfl, -⟩ := hv; exact .fail _
  | unit => simp only [Like] at hv; subst hv; exact .fail _
  | user => simp only [Like] at hv; obtain ⟨_, _, rfl, -⟩ := hv; exact .fail _
  | _ => simp only [Like] at hv; obtain ⟨_, rfl, -⟩ := hv; exact .fail _

theorem convert_below (h : Simulates T U C C') (a b : Ty) {v w : Val} (hv : Like T U v w) :
    Below T U (Like T U) (convert C a b v) (convert C' a b w) := by
  refine .ite Iff.rfl (fun _ => .pure hv) fun _ => ?_
  have := h.conv a b
  cases h1 : C.conv a b <;> cases h2 : C'.conv a b <;> rw [h1, h2] at this
  · exact .fail _
  · exact this.elim
  · exact this.elim
  · exact .pure (this _ _ hv)

theorem fromOptional_below (h : Simulates T U C C') (a b : Ty) :
    OptRel (fun f g => ∀ v w, OptRel (Like T U) v w → Like T U (f v) (g w)) (fromOptional C a b) (fromOptional C' a b) := by
  unfold fromOptional
  split
  · intro v w hv
    cases v <;> cases w
    · simp [Like]
    · exact hv.elim
    · exact hv.elim
    · simp only [Like]; exact ⟨_, rfl, hv⟩
  · exact h.convOpt a b

theorem builderEmplaceAt_below (h : Simulates T U C C') (t : Ty) (i : Nat) (a : Ty) {v w : Val} {r r' : R}
    (hv : Like T U v w) (hr : LikeR T U r r') :
    Below T U (Like T U) (builderEmplaceAt C t i a v r) (builderEmplaceAt C' t i a w r') := by
  cases t with
  | void => exact .pure hv
  | var ts =>
    simp only [builderEmplaceAt]
    cases ts[i]? with
    | none => exact .fail _
    | some d =>
      refine .bind hr.deref fun x y hxy => .bind (convert_below h a d hxy) fun x y hxy => .pure ?_
      simp only [Like]; exact ⟨_, rfl, hxy⟩
  | _ => exact .fail _

/-! basic parsers -/

theorem front_below (h : Simulates T U C C') {s s' : Span} (hs : T s s') :
    Below T U Eq (s.front C.mem) (s'.front C'.mem) := by
  simp only [Span.front]
  refine .ite (by rw [h.len hs]) (fun _ => .fail _) fun hne => ?_
  rw [h.read hs 0 (by omega)]
  cases hp : s'.ptr with
  | null => exact .fail _
  | «at» b o =>
    simp only [Ptr.read]
    cases (C'.mem b)[o + 0]? with
    | none => exact .fail _
    | some x => exact .pure rfl

theorem equalLoop_congr {L A B : Type} {f : Nat → M L A} {g g' : Nat → M L B} {e : A → B → Bool} (todo i : Nat)
    (h : ∀ j < i + todo, g j = g' j) : Span.equalLoop f g e todo i = Span.equalLoop f g' e todo i := by
  induction todo generalizing i with
  | zero => rfl
  | succ todo ih =>
    simp only [Span.equalLoop]
    rw [h i (by omega)]
    simp only [ih (i + 1) (fun j hj => h j (by omega))]

theorem equalLoop_below {L : Type} {f : Nat → Run L} {g : Nat → Run β} {e : L → β → Bool} (todo i : Nat)
    (hf : ∀ j, Below T U Eq (f j) (f j)) (hg : ∀ j, Below T U Eq (g j) (g j)) :
    Below T U Eq (Span.equalLoop f g e todo i) (Span.equalLoop f g e todo i) := by
  induction todo generalizing i with
  | zero => exact .pure rfl
  | succ todo ih =>
    refine .bind (hf i) ?_
    rintro a _ rfl
    refine .bind (hg i) ?_
    rintro b _ rfl
    exact .ite Iff.rfl (fun _ => .pure rfl) fun _ => ih _

theorem read_below {L : Type} (m : Mem L) (p : Ptr) (i : Nat) : Below T U Eq (p.read m i) (p.read m i) := by
  cases p with
  | null => exact .fail _
  | «at» b o =>
    simp only [Ptr.read]
    cases (m b)[o + i]? with
    | none => exact .fail _
    | some x => exact .pure rfl

theorem failureCondition_below (h : Simulates T U C C') (b : BasicP α) {s s' : Span} (hs : T s s') :
    Below T U (fun c c' => c = c' ∧ (c = false → b.length ≤ s.len))
      (failureCondition C b s) (failureCondition C' b s') := by
  have hl := h.len hs
  have he : s.empty = s'.empty := by simp only [Span.empty, hl]
  have hpos : ¬ s.empty = true → 1 ≤ s.len := by simp [Span.empty]; omega
  cases b with
  | anyOf arr =>
    refine .ite (by rw [he]) (fun _ => .pure ⟨rfl, nofun⟩) fun hne => .bind (front_below h hs) ?_
    rintro x _ rfl
    exact .pure ⟨by rw [h.eqv], fun _ => hpos hne⟩
  | noneOf arr =>
    refine .ite (by rw [he]) (fun _ => .pure ⟨rfl, nofun⟩) fun hne => .bind (front_below h hs) ?_
    rintro x _ rfl
    exact .pure ⟨by rw [h.eqv], fun _ => hpos hne⟩
  | allOf arr =>
    refine .ite (by rw [hl]) (fun _ => .pure ⟨rfl, nofun⟩) fun hne => ?_
    have hle : arr.length ≤ s.len := by omega
    have hf : Below T U (fun f f' => f = ⟨s.ptr, arr.length⟩ ∧ f' = ⟨s'.ptr, arr.length⟩)
        (s.first arr.length) (s'.first arr.length) := by
      simp only [Span.first]
      exact .ite (by rw [hl]) (fun _ => .pure ⟨rfl, rfl⟩) fun _ => .fail _
    refine .bind hf ?_
    rintro _ _ ⟨rfl, rfl⟩
    simp only [arrNotEqual, Span.equal, ne_eq, not_true, if_false, M.bind_eq]
    rw [h.eqv, equalLoop_congr (g := s.ptr.read C.mem) (g' := s'.ptr.read C'.mem) _ _
      (fun j hj => h.read hs j (by omega))]
    refine .bind (equalLoop_below _ _ (fun j => read_below _ _ j) fun j => read_below _ _ j) ?_
    rintro x _ rfl
    exact .pure ⟨rfl, fun _ => hle⟩
  | anything => exact .pure ⟨he, fun hne => hpos (by simp [hne])⟩

theorem advance_below (h : Simulates T U C C') {s s' : Span} (hs : T s s') {n : Nat} (hn : n ≤ s.len) :
    Below T U T (advance C s n) (advance C' s' n) := by
  refine .bind (h.add hs n hn) fun p p' hp => ?_
  simp only [sizeSub, ← h.len hs, if_pos hn]
  exact .bind (Q := fun x y => x = s.len - n ∧ y = s.len - n) (.pure ⟨rfl, rfl⟩)
    (by rintro _ _ ⟨rfl, rfl⟩; exact .pure hp)

theorem parseBasic_below (h : Simulates T U C C') (b : BasicP α) {s s' : Span} (hs : T s s') :
    Below T U (LikeR T U) (parseBasic C b s) (parseBasic C' b s') := by
  refine .bind (failureCondition_below h b hs) ?_
  rintro c _ ⟨rfl, hc⟩
  refine .ite Iff.rfl (fun _ => .pure (.failure hs)) fun hne => ?_
  have hl := hc (by simpa using hne)
  refine .bind (advance_below h hs hl) fun r r' hr => .pure (.success ?_ hr)
  simp only [Like]; exact ⟨_, rfl, h.take hs _ hl⟩

theorem lookBasic_below (h : Simulates T U C C') (b : BasicP α) {s s' : Span} (hs : T s s') :
    Below T U (LikeR T U) (lookBasic C b s) (lookBasic C' b s') := by
  refine .bind (failureCondition_below h b hs) ?_
  rintro c _ ⟨rfl, hc⟩
  refine .ite Iff.rfl (fun _ => .pure (.failure hs)) fun hne => ?_
  exact .bind (advance_below h hs (hc (by simpa using hne))) fun r r' hr => .pure (.successVoid hr)

/-! compound parsers -/

/-- corresponding elements of a choice or sequence -/
structure ElemBelow (T : Span → Span → Prop) (U : Val → Val → Prop) (e e' : Elem) : Prop where
  ty : e.ty = e'.ty
  idx : e.idx = e'.idx
  look : e.idx = none → BelowL T U e.sub e'.sub
  parse : e.idx ≠ none → BelowP T U e.sub e'.sub

structure ExecAlike (T : Span → Span → Prop) (U : Val → Val → Prop) (x y : Exec) : Prop where
  input : T x.input y.input
  value : Like T U x.value y.value

theorem execute_below (h : Simulates T U C C') (t : Ty) (u c : Bool) {e e' : Elem} (he : ElemBelow T U e e')
    {st st' : Exec} (hst : ExecAlike T U st st') :
    Below T U (fun x y => x.1 = y.1 ∧ ExecAlike T U x.2 y.2) (execute C t u c e st) (execute C' t u c e' st') := by
  obtain ⟨P, a, i⟩ := e
  obtain ⟨P', a', i'⟩ := e'
  obtain ⟨h1, h2, h3, h4⟩ := he
  simp only at h1 h2 h3 h4
  subst h1 h2
  cases i with
  | none =>
    refine .bind (h3 rfl _ _ hst.input) fun r r' hr => .pure ⟨hr.hasValue, hr.rem, hst.value⟩
  | some i =>
    refine .bind (h4 nofun _ _ hst.input) fun r r' hr => ?_
    refine .ite hr.not (fun _ => .pure ⟨rfl, hst⟩) fun _ => ?_
    refine .bind (Q := Like T U) ?_ fun v w hv => .pure ⟨rfl, hr.rem, hv⟩
    refine .ite Iff.rfl (fun _ => builderAssign_below t hst.value hr) fun _ => ?_
    exact .ite Iff.rfl (fun _ => builderEmplaceAt_below h t i a hst.value hr) fun _ =>
      builderGetAssign_below t i hst.value hr

theorem foldOr_below (h : Simulates T U C C') (t : Ty) (u c : Bool) {es es' : List Elem}
    (he : List.Forall₂ (ElemBelow T U) es es') {st st' : Exec} (hst : ExecAlike T U st st') :
    Below T U (fun x y => x.1 = y.1 ∧ ExecAlike T U x.2 y.2) (foldOr (execute C t u c) es st)
      (foldOr (execute C' t u c) es' st') := by
  induction he generalizing st st' with
  | nil => exact .pure ⟨rfl, hst⟩
  | cons h1 _ ih =>
    refine .bind (execute_below h t u c h1 hst) ?_
    rintro ⟨ok, x⟩ ⟨ok', y⟩ ⟨h2, h3⟩
    simp only at h2 h3
    subst h2
    exact .ite Iff.rfl (fun _ => .pure ⟨rfl, h3⟩) fun _ => ih h3

theorem foldAnd_below (h : Simulates T U C C') (t : Ty) (u c : Bool) {es es' : List Elem}
    (he : List.Forall₂ (ElemBelow T U) es es') {st st' : Exec} (hst : ExecAlike T U st st') :
    Below T U (fun x y => x.1 = y.1 ∧ ExecAlike T U x.2 y.2) (foldAnd (execute C t u c) es st)
      (foldAnd (execute C' t u c) es' st') := by
  induction he generalizing st st' with
  | nil => exact .pure ⟨rfl, hst⟩
  | cons h1 _ ih =>
    refine .bind (execute_below h t u c h1 hst) ?_
    rintro ⟨ok, x⟩ ⟨ok', y⟩ ⟨h2, h3⟩
    simp only at h2 h3
    subst h2
    exact .ite Iff.rfl (fun _ => ih h3) fun _ => .pure ⟨rfl, h3⟩

theorem parseChoice_below (h : Simulates T U C C') (tr : Trait) {es es' : List Elem}
    (he : List.Forall₂ (ElemBelow T U) es es') {s s' : Span} (hs : T s s') :
    Below T U (LikeR T U) (parseChoice C tr es s) (parseChoice C' tr es' s') := by
  refine .bind (builderInit_below h _) fun v w hv => .bind (foldOr_below h _ _ _ he ⟨hs, hv⟩) ?_
  rintro ⟨ok, x⟩ ⟨ok', y⟩ ⟨h2, h3⟩
  simp only at h2 h3
  subst h2
  exact .ite Iff.rfl (fun _ => .pure (.failure hs)) fun _ => .pure (.build _ h3.value h3.input)

theorem lookChoice_below (h : Simulates T U C C') (tr : Trait) {es es' : List Elem}
    (he : List.Forall₂ (ElemBelow T U) es es') {s s' : Span} (hs : T s s') :
    Below T U (LikeR T U) (lookChoice C tr es s) (lookChoice C' tr es' s') := by
  refine .bind (foldOr_below h _ _ _ he ⟨hs, by simp [Like]⟩) ?_
  rintro ⟨ok, x⟩ ⟨ok', y⟩ ⟨h2, h3⟩
  simp only at h2 h3
  subst h2
  exact .ite Iff.rfl (fun _ => .pure (.successVoid h3.input)) fun _ => .pure (.failure hs)

theorem parseSequence_below (h : Simulates T U C C') (tr : Trait) {es es' : List Elem}
    (he : List.Forall₂ (ElemBelow T U) es es') {s s' : Span} (hs : T s s') :
    Below T U (LikeR T U) (parseSequence C tr es s) (parseSequence C' tr es' s') := by
  refine .bind (builderInit_below h _) fun v w hv => .bind (foldAnd_below h _ _ _ he ⟨hs, hv⟩) ?_
  rintro ⟨ok, x⟩ ⟨ok', y⟩ ⟨h2, h3⟩
  simp only at h2 h3
  subst h2
  exact .ite Iff.rfl (fun _ => .pure (.failure hs)) fun _ => .pure (.build _ h3.value h3.input)

theorem lookSequence_below (h : Simulates T U C C') (tr : Trait) {es es' : List Elem}
    (he : List.Forall₂ (ElemBelow T U) es es') {s s' : Span} (hs : T s s') :
    Below T U (LikeR T U) (lookSequence C tr es s) (lookSequence C' tr es' s') := by
  refine .bind (foldAnd_below h _ _ _ he ⟨hs, by simp [Like]⟩) ?_
  rintro ⟨ok, x⟩ ⟨ok', y⟩ ⟨h2, h3⟩
  simp only at h2 h3
  subst h2
  exact .ite Iff.rfl (fun _ => .pure (.successVoid h3.input)) fun _ => .pure (.failure hs)

theorem parseMaybe_below (h : Simulates T U C C') (t : Ty) (hP : BelowP T U P P') {s s' : Span} (hs : T s s') :
    Below T U (LikeR T U) (parseMaybe C t P s) (parseMaybe C' t P' s') := by
  refine .bind (builderInit_below h _) fun v w hv => .bind (hP _ _ hs) fun r r' hr => ?_
  refine .bind (Q := Like T U) ?_ fun v w hv => .pure (.build _ hv hr.rem)
  exact .ite (by rw [hr.hasValue]) (fun _ => builderEmplace_below t hv hr) fun _ => .pure hv

theorem lookMaybe_below (hP : BelowL T U P P') {s s' : Span} (hs : T s s') :
    Below T U (LikeR T U) (lookMaybe P s) (lookMaybe P' s') := by
  refine .bind (hP _ _ hs) fun r r' hr => ?_
  exact .ite (by rw [hr.hasValue]) (fun _ => .pure (.successVoid hr.rem)) fun _ => .pure (.successVoid hs)

theorem exactlyLoop_below (t : Ty) (hP : BelowP T U P P') {o o' : Span} (ho : T o o') (todo i : Nat)
    {s s' : Span} (hs : T s s') {v w : Val} (hv : Like T U v w) :
    Below T U (LikeR T U) (exactlyLoop t P o todo i s v) (exactlyLoop t P' o' todo i s' w) := by
  induction todo generalizing i s s' v w with
  | zero => exact .pure (.build _ hv hs)
  | succ todo ih =>
    refine .bind (hP _ _ hs) fun r r' hr => .ite hr.not (fun _ => .pure (.failure ho)) fun _ => ?_
    exact .bind (builderArrayAssign_below t i hv hr) fun v w hv => ih _ hr.rem hv

theorem lookExactlyLoop_below (hP : BelowL T U P P') {o o' : Span} (ho : T o o') (todo : Nat)
    {s s' : Span} (hs : T s s') :
    Below T U (LikeR T U) (lookExactlyLoop P o todo s) (lookExactlyLoop P' o' todo s') := by
  induction todo generalizing s s' with
  | zero => exact .pure (.successVoid hs)
  | succ todo ih =>
    exact .bind (hP _ _ hs) fun r r' hr => .ite hr.not (fun _ => .pure (.failure ho)) fun _ => ih hr.rem

theorem oneOrMoreLoop_below (t : Ty) (hP : BelowP T U P P') (k : Nat) (b : Bool)
    {s s' : Span} (hs : T s s') {v w : Val} (hv : Like T U v w) :
    Below T U (fun x y => x.1 = y.1 ∧ T x.2.1 y.2.1 ∧ Like T U x.2.2 y.2.2)
      (oneOrMoreLoop t P k b s v) (oneOrMoreLoop t P' k b s' w) := by
  induction k generalizing b s s' v w with
  | zero => exact .diverge
  | succ k ih =>
    refine .bind (hP _ _ hs) fun r r' hr => ?_
    refine .ite hr.not (fun _ => .pure ⟨by rw [hr.hasValue], hr.rem, hv⟩) fun _ => ?_
    refine .bind (builderInsertBack_below t hv hr) fun v w hv => ?_
    rw [hr.hasValue]
    exact ih _ hr.rem hv

theorem lookOneOrMoreLoop_below (hP : BelowL T U P P') (k : Nat) (b : Bool) {s s' : Span} (hs : T s s') :
    Below T U (fun x y => x.1 = y.1 ∧ T x.2 y.2)
      (lookOneOrMoreLoop P k b s) (lookOneOrMoreLoop P' k b s') := by
  induction k generalizing b s s' with
  | zero => exact .diverge
  | succ k ih =>
    refine .bind (hP _ _ hs) fun r r' hr => ?_
    refine .ite hr.not (fun _ => .pure ⟨by rw [hr.hasValue], hr.rem⟩) fun _ => ?_
    rw [hr.hasValue]
    exact ih _ hr.rem

theorem zeroOrMoreLoop_below (t : Ty) (hP : BelowP T U P P') (k : Nat)
    {s s' : Span} (hs : T s s') {v w : Val} (hv : Like T U v w) :
    Below T U (fun x y => T x.1 y.1 ∧ Like T U x.2 y.2)
      (zeroOrMoreLoop t P k s v) (zeroOrMoreLoop t P' k s' w) := by
  induction k generalizing s s' v w with
  | zero => exact .diverge
  | succ k ih =>
    refine .bind (hP _ _ hs) fun r r' hr => ?_
    refine .ite hr.not (fun _ => .pure ⟨hr.rem, hv⟩) fun _ => ?_
    exact .bind (builderInsertBack_below t hv hr) fun v w hv => ih hr.rem hv

theorem lookZeroOrMoreLoop_below (hP : BelowL T U P P') (k : Nat) {s s' : Span} (hs : T s s') :
    Below T U T (lookZeroOrMoreLoop P k s) (lookZeroOrMoreLoop P' k s') := by
  induction k generalizing s s' with
  | zero => exact .diverge
  | succ k ih =>
    refine .bind (hP _ _ hs) fun r r' hr => ?_
    exact .ite hr.not (fun _ => .pure hr.rem) fun _ => ih hr.rem

theorem parseOneOrMore_below (h : Simulates T U C C') (t : Ty) (hP : BelowP T U P P') (k : Nat)
    {s s' : Span} (hs : T s s') :
    Below T U (LikeR T U) (parseOneOrMore C t P k s) (parseOneOrMore C' t P' k s') := by
  refine .bind (builderInit_below h _) fun v w hv => .bind (oneOrMoreLoop_below t hP k _ hs hv) ?_
  rintro ⟨b, x, v⟩ ⟨b', x', v'⟩ ⟨h1, h2, h3⟩
  simp only at h1 h2 h3
  subst h1
  exact .ite Iff.rfl (fun _ => .pure (.build _ h3 h2)) fun _ => .pure (.failure h2)

theorem lookOneOrMore_below (hP : BelowL T U P P') (k : Nat) {s s' : Span} (hs : T s s') :
    Below T U (LikeR T U) (lookOneOrMore P k s) (lookOneOrMore P' k s') := by
  refine .bind (lookOneOrMoreLoop_below hP k _ hs) ?_
  rintro ⟨b, x⟩ ⟨b', x'⟩ ⟨h1, h2⟩
  simp only at h1 h2
  subst h1
  exact .ite Iff.rfl (fun _ => .pure (.successVoid h2)) fun _ => .pure (.failure h2)

theorem parseZeroOrMore_below (h : Simulates T U C C') (t : Ty) (hP : BelowP T U P P') (k : Nat)
    {s s' : Span} (hs : T s s') :
    Below T U (LikeR T U) (parseZeroOrMore C t P k s) (parseZeroOrMore C' t P' k s') := by
  refine .bind (builderInit_below h _) fun v w hv => .bind (zeroOrMoreLoop_below t hP k hs hv) ?_
  rintro ⟨x, v⟩ ⟨x', v'⟩ ⟨h2, h3⟩
  exact .pure (.build _ h3 h2)

theorem lookZeroOrMore_below (hP : BelowL T U P P') (k : Nat) {s s' : Span} (hs : T s s') :
    Below T U (LikeR T U) (lookZeroOrMore P k s) (lookZeroOrMore P' k s') :=
  .bind (lookZeroOrMoreLoop_below hP k hs) fun _ _ h => .pure (.successVoid h)

theorem delimitRecordP_below (t tp td : Ty) {v w : Val} (hv : Like T U v w) {r r' : R} (hr : LikeR T U r r') :
    Below T U (Like T U) (delimitRecordP t tp td v r) (delimitRecordP t tp td w r') := by
  refine .ite Iff.rfl (fun _ => ?_) fun _ => .pure hv
  exact .ite Iff.rfl (fun _ => builderInsertBack_below t hv hr) fun _ => builderInsertBackFirst_below t hv hr

theorem delimitRecordD_below (t tp td : Ty) {v w : Val} (hv : Like T U v w) {r r' d d' : R}
    (hr : LikeR T U r r') (hd : LikeR T U d d') :
    Below T U (Like T U) (delimitRecordD t tp td v r d) (delimitRecordD t tp td w r' d') := by
  refine .ite Iff.rfl (fun _ => ?_) fun _ => .pure hv
  refine .ite (by rw [hr.hasValue]) (fun _ => ?_) fun _ => .pure hv
  exact .ite Iff.rfl (fun _ => builderInsertBack_below t hv hd) fun _ => builderInsertBackSecond_below t hv hd

theorem delimitLoop_below (t tp td : Ty) (hP : BelowP T U P P') (hD : BelowP T U D D') (k : Nat)
    {r r' : R} (hr : LikeR T U r r') {s s' : Span} (hs : T s s') {v w : Val} (hv : Like T U v w) :
    Below T U (fun x y => T x.1 y.1 ∧ Like T U x.2 y.2)
      (delimitLoop t tp td P D k r s v) (delimitLoop t tp td P' D' k r' s' w) := by
  induction k generalizing r r' s s' v w with
  | zero => exact .diverge
  | succ k ih =>
    refine .ite hr.not (fun _ => .pure ⟨hs, hv⟩) fun _ => ?_
    refine .bind (delimitRecordP_below t tp td hv hr) fun v w hv => .bind (hD _ _ hr.rem) fun d d' hd => ?_
    refine .ite hd.not (fun _ => .pure ⟨hr.rem, hv⟩) fun _ => .bind (hP _ _ hd.rem) fun q q' hq => ?_
    exact .bind (delimitRecordD_below t tp td hv hq hd) fun v w hv => ih hq hr.rem hv

theorem lookDelimitLoop_below (hP : BelowL T U P P') (hD : BelowL T U D D') (k : Nat)
    {r r' : R} (hr : LikeR T U r r') {s s' : Span} (hs : T s s') :
    Below T U T (lookDelimitLoop P D k r s) (lookDelimitLoop P' D' k r' s') := by
  induction k generalizing r r' s s' with
  | zero => exact .diverge
  | succ k ih =>
    refine .ite hr.not (fun _ => .pure hs) fun _ => .bind (hD _ _ hr.rem) fun d d' hd => ?_
    refine .ite hd.not (fun _ => .pure hr.rem) fun _ => .bind (hP _ _ hd.rem) fun q q' hq => ?_
    exact ih hq hr.rem

theorem parseDelimit_below (h : Simulates T U C C') (t tp td : Ty) (hP : BelowP T U P P')
    (hD : BelowP T U D D') (k : Nat) {s s' : Span} (hs : T s s') :
    Below T U (LikeR T U) (parseDelimit C t tp td P D k s) (parseDelimit C' t tp td P' D' k s') := by
  refine .bind (builderInit_below h _) fun v w hv => .bind (hP _ _ hs) fun r r' hr => ?_
  refine .ite hr.not (fun _ => .pure (.failure hs)) fun _ => ?_
  refine .bind (delimitLoop_below t tp td hP hD k hr hs hv) ?_
  rintro ⟨x, v⟩ ⟨x', v'⟩ ⟨h2, h3⟩
  exact .pure (.build _ h3 h2)

theorem lookDelimit_below (hP : BelowL T U P P') (hD : BelowL T U D D') (k : Nat) {s s' : Span}
    (hs : T s s') : Below T U (LikeR T U) (lookDelimit P D k s) (lookDelimit P' D' k s') := by
  refine .bind (hP _ _ hs) fun r r' hr => ?_
  refine .ite hr.not (fun _ => .pure (.failure hs)) fun _ => ?_
  exact .bind (lookDelimitLoop_below hP hD k hr hs) fun _ _ h => .pure (.successVoid h)

theorem complete_below (h : Simulates T U C C') {m m' : Run R} (hm : Below T U (LikeR T U) m m') {s s' : Span}
    (hs : T s s') :
    Below T U (LikeR T U) (M.bind m fun res => if !res.hasValue || !res.rem.empty then M.pure (R.failure s) else M.pure res)
      (M.bind m' fun res => if !res.hasValue || !res.rem.empty then M.pure (R.failure s') else M.pure res) := by
  refine .bind hm fun r r' hr => .ite ?_ (fun _ => .pure (.failure hs)) fun _ => .pure hr
  rw [hr.hasValue, Span.empty, Span.empty, h.len hr.rem]

/-! functions -/

theorem argVals_below (t : Ty) {r r' : R} (hr : LikeR T U r r') :
    Below T U (Likes T U) (argVals t r) (argVals t r') :=
  .ite Iff.rfl (fun _ => .pure .nil) fun _ => .bind hr.deref fun _ _ h => .pure (.one h)

theorem parseMap_below {f : Fn} (hf : FnAlike T U C C' f) (b a : Ty) (hP : BelowP T U P P') {s s' : Span}
    (hs : T s s') : Below T U (LikeR T U) (parseMap C b a f P s) (parseMap C' b a f P' s') := by
  refine .bind (hP _ _ hs) fun r r' hr => .ite hr.not (fun _ => .pure (.failure hs)) fun _ => ?_
  refine .bind (argVals_below b hr) fun x y hxy => .bind (hf _ _ hxy) fun v w hv => ?_
  exact .ite Iff.rfl (fun _ => .pure (.successVoid hr.rem)) fun _ => .pure (.success hv hr.rem)

theorem parseFilter_below {f : Fn} (hf : PredAlike T U C C' f) (t : Ty) (hP : BelowP T U P P') {s s' : Span}
    (hs : T s s') : Below T U (LikeR T U) (parseFilter C t f P s) (parseFilter C' t f P' s') := by
  refine .bind (hP _ _ hs) fun r r' hr => .ite hr.not (fun _ => .pure (.failure hs)) fun _ => ?_
  refine .bind (argVals_below t hr) fun x y hxy => .bind (hf _ _ hxy) fun v w hv => ?_
  exact .ite (by rw [hv]) (fun _ => .pure hr) fun _ => .pure (.failure hs)

/-! join -/

def JoinedAlike (T : Span → Span → Prop) : Option Span → Option Span → Prop
  | some j, some j' => T j j' ∧ j.len ≠ 0
  | none, none => True
  | _, _ => False

abbrev JoinStep (T : Span → Span → Prop) (x y : Bool × Option Span) : Prop :=
  x.1 = y.1 ∧ JoinedAlike T x.2 y.2

theorem tryJoinSpan_below (h : Simulates T U C C') {j j' : Option Span} (hj : JoinedAlike T j j')
    {o o' : Span} (ho : T o o') : Below T U (JoinStep T) (tryJoinSpan C j o) (tryJoinSpan C' j' o') := by
  have hl := h.len ho
  refine .ite (by simp only [Span.empty, hl]) (fun _ => .pure ⟨rfl, hj⟩) fun hne => ?_
  have hne : o.len ≠ 0 := by simpa [Span.empty] using hne
  cases j with
  | none =>
    cases j' with
    | none => exact .pure ⟨rfl, ho, hne⟩
    | some j' => exact hj.elim
  | some j =>
    cases j' with
    | none => exact hj.elim
    | some j' =>
      refine .bind (h.adj hj.1 ho hj.2 hne) ?_
      rintro b _ ⟨rfl, hb⟩
      exact .ite Iff.rfl (fun ht => .pure ⟨rfl, hb ht, by simp; omega⟩) fun _ => .pure ⟨rfl, trivial⟩

mutual
theorem tryJoin_below (h : Simulates T U C C') : ∀ (v w : Val) (j j' : Option Span), Like T U v w →
    JoinedAlike T j j' → Below T U (JoinStep T) (tryJoin C j v) (tryJoin C' j' w)
  | .span s, w, j, j', hv, hj => by
    simp only [Like] at hv; obtain ⟨s', rfl, hv⟩ := hv
    simp only [tryJoin]; exact tryJoinSpan_below h hj hv
  | .vec vs, w, j, j', hv, hj => by
    simp only [Like] at hv; obtain ⟨ws, rfl, hv⟩ := hv
    simp only [tryJoin]; exact tryJoins_below h vs ws j j' hv hj
  | .arr vs, w, j, j', hv, hj => by
    simp only [Like] at hv; obtain ⟨ws, rfl, hv⟩ := hv
    simp only [tryJoin]; exact tryJoins_below h vs ws j j' hv hj
  | .tup vs, w, j, j', hv, hj => by
    simp only [Like] at hv; obtain ⟨ws, rfl, hv⟩ := hv
    simp only [tryJoin]; exact tryJoins_below h vs ws j j' hv hj
  | .opt none, w, j, j', hv, hj => by
    simp only [Like] at hv; subst hv
    simp only [tryJoin]; exact .pure ⟨rfl, hj⟩
  | .opt (some v), w, j, j', hv, hj => by
    simp only [Like] at hv; obtain ⟨w, rfl, hv⟩ := hv
    simp only [tryJoin]; exact tryJoin_below h v w j j' hv hj
  | .user k t vs, w, j, j', hv, hj => by
    have hv' := hv
    simp only [Like] at hv; obtain ⟨t', ws, rfl, hv⟩ := hv
    simp only [tryJoin]
    have := h.toSpan k
    cases h1 : C.userSpan k <;> cases h2 : C'.userSpan k <;> rw [h1, h2] at this
    · exact .fail _
    · exact this.elim
    · exact this.elim
    · exact tryJoinSpan_below h hj (this _ _ hv')
  | .unit, w, j, j', hv, hj => by
    simp only [Like] at hv; subst hv; simp only [tryJoin]; exact .fail _
  | .var _ v, w, j, j', hv, hj => by
    simp only [Like] at hv; obtain ⟨w, rfl, hv⟩ := hv; simp only [tryJoin]; exact .fail _
  | .pair a b, w, j, j', hv, hj => by
    simp only [Like] at hv; obtain ⟨_, _, rfl, hv⟩ := hv; simp only [tryJoin]; exact .fail _
theorem tryJoins_below (h : Simulates T U C C') : ∀ (vs ws : List Val) (j j' : Option Span), Likes T U vs ws →
    JoinedAlike T j j' → Below T U (JoinStep T) (tryJoins C j vs) (tryJoins C' j' ws)
  | [], ws, j, j', hv, hj => by
    simp only [Likes] at hv; subst hv; simp only [tryJoins]; exact .pure ⟨rfl, hj⟩
  | v :: vs, ws, j, j', hv, hj => by
    simp only [Likes] at hv; obtain ⟨w, ws, rfl, hw, hv⟩ := hv
    simp only [tryJoins, M.bind_eq]
    refine .bind (tryJoin_below h v w j j' hw hj) ?_
    rintro ⟨ok, j⟩ ⟨ok', j'⟩ ⟨h1, h2⟩
    simp only at h1 h2
    subst h1
    exact .ite Iff.rfl (fun _ => tryJoins_below h vs ws j j' hv h2) fun _ => .pure ⟨rfl, h2⟩
end

theorem joinExecutor_below (h : Simulates T U C C') {r r' : R} (hr : LikeR T U r r') :
    Below T U (OptRel T) (joinExecutor C r) (joinExecutor C' r') := by
  refine .bind hr.deref fun v w hv => .bind (tryJoin_below h v w none none hv trivial) ?_
  rintro ⟨ok, j⟩ ⟨ok', j'⟩ ⟨h1, h2⟩
  simp only at h1 h2
  subst h1
  refine .ite ?_ (fun _ => .pure (h.take hr.rem 0 (Nat.zero_le _))) fun _ => .pure ?_
  · cases j <;> cases j' <;> first | exact h2.elim | simp
  · cases j <;> cases j' <;> first | exact h2.elim | exact h2.1 | trivial

theorem parseJoin_below (h : Simulates T U C C') (hP : BelowP T U P P') {s s' : Span} (hs : T s s') :
    Below T U (LikeR T U) (parseJoin C P s) (parseJoin C' P' s') := by
  refine .bind (hP _ _ hs) fun r r' hr => ?_
  refine .ite (by rw [hr.hasValue]) (fun _ => ?_) fun _ => .pure (.failure hs)
  refine .bind (joinExecutor_below h hr) fun j j' hj => ?_
  cases j <;> cases j'
  · exact .pure (.failure hs)
  · exact hj.elim
  · exact hj.elim
  · exact .pure (.success (by simp only [Like]; exact ⟨_, rfl, hj⟩) hr.rem)

theorem parseCustom_below (h : Simulates T U C C') (a b : Ty) (hP : BelowP T U P P') {s s' : Span}
    (hs : T s s') : Below T U (LikeR T U) (parseCustom C a b P s) (parseCustom C' a b P' s') := by
  refine .bind (hP _ _ hs) fun r r' hr => ?_
  refine .ite Iff.rfl (fun _ => .pure hr) fun _ => .ite Iff.rfl (fun _ => .fail _) fun _ => ?_
  obtain ⟨v, x⟩ := r; obtain ⟨v', x'⟩ := r'
  have hv := hr.val
  have hf := fromOptional_below h a b
  have ho : OptRel (Like T U) v v' := by
    cases v <;> cases v'
    · exact trivial
    · exact hv.elim
    · exact hv.elim
    · exact hv
  cases h1 : fromOptional C a b <;> cases h2 : fromOptional C' a b <;> rw [h1, h2] at hf
  · cases v <;> cases v'
    · exact .pure hr
    · exact hv.elim
    · exact hv.elim
    · exact .bind (convert_below h a b hv) fun v w hv => .pure ⟨hv, hr.rem⟩
  · exact hf.elim
  · exact hf.elim
  · exact .pure ⟨hf _ _ ho, hr.rem⟩

end

/-! ### Tying the knot -/

/-- without the outermost names -/
def Parser.strip : Parser α → Parser α
  | .named p _ => p.strip
  | p => p

theorem strip_unnamed (p : Parser α) : p.strip.unnamed = p.unnamed := by
  fun_induction Parser.strip with
  | case1 p n ih => rw [ih, Parser.unnamed]
  | case2 => rfl

theorem strip_not_named (p q : Parser α) (n : Name) : p.strip ≠ .named q n := by
  fun_induction Parser.strip with
  | case1 p m ih => exact ih
  | case2 p h => exact fun he => h _ _ he

theorem unnamedAll_eq {ps qs : List (Parser α)} (h : Parser.unnamedAll ps = Parser.unnamedAll qs) :
    List.Forall₂ (fun p q => p.unnamed = q.unnamed) ps qs := by
  induction ps generalizing qs with
  | nil =>
    cases qs with
    | nil => exact .nil
    | cons q qs => simp [Parser.unnamedAll] at h
  | cons p ps ih =>
    cases qs with
    | nil => simp [Parser.unnamedAll] at h
    | cons q qs =>
      simp only [Parser.unnamedAll, List.cons.injEq] at h
      exact .cons h.1 (ih h.2)

section
variable {C C' : Ctx α β}

theorem den_strip (p : Parser α) : den C p.strip = den C p := by
  fun_induction Parser.strip with
  | case1 p n ih =>
    rw [ih]
    simp only [den]
    congr 1 <;> funext s
    · rw [Parse_named]
    · rw [Look_named]
  | case2 => rfl

theorem mkElems_below {rec rec' : Parser α → Sub} (h : Simulates T U C C') {ps qs : List (Parser α)}
    (hpq : List.Forall₂ (fun p q => p.unnamed = q.unnamed) ps qs)
    (hL : ∀ p ∈ ps, ∀ q : Parser α, p.unnamed = q.unnamed → BelowL T U (rec p) (rec' q))
    (hP : ∀ p ∈ ps, ∀ q : Parser α, p.unnamed = q.unnamed → BelowP T U (rec p) (rec' q)) (is : List (Option Nat)) :
    List.Forall₂ (ElemBelow T U) (mkElems rec C ps is) (mkElems rec' C' qs is) := by
  induction hpq generalizing is with
  | nil => cases is <;> exact .nil
  | @cons p q ps qs h1 _ ih =>
    cases is with
    | nil => exact .nil
    | cons i is =>
      exact .cons ⟨resultFor_alike h h1, rfl, fun _ => hL p (by simp) _ h1, fun _ => hP p (by simp) _ h1⟩
        (ih (fun p hp => hL p (by simp [hp])) (fun p hp => hP p (by simp [hp])) is)

theorem mkLookElems_below {rec rec' : Parser α → Sub} (h : Simulates T U C C') {ps qs : List (Parser α)}
    (hpq : List.Forall₂ (fun p q => p.unnamed = q.unnamed) ps qs)
    (hL : ∀ p ∈ ps, ∀ q : Parser α, p.unnamed = q.unnamed → BelowL T U (rec p) (rec' q)) :
    List.Forall₂ (ElemBelow T U) (mkLookElems rec C ps) (mkLookElems rec' C' qs) := by
  induction hpq with
  | nil => exact .nil
  | @cons p q ps qs h1 _ ih =>
    exact .cons ⟨resultFor_alike h h1, rfl, fun _ => hL p (by simp) _ h1, fun h => absurd rfl h⟩
      (ih fun p hp => hL p (by simp [hp]))

theorem step_le_den (k : Nat) (p : Parser α) : (step C (den C) k p).le (den C p) := fun s =>
  ⟨by
    show ((step C (den C) k p).parse s).le (Parse C p s)
    rw [Parse_eq]
    exact (Mono.lim fun k => (step_fuel_le (den C) k p s).1).le k,
   by
    show ((step C (den C) k p).look s).le (Look C p s)
    rw [Look_eq]
    exact (Mono.lim fun k => (step_fuel_le (den C) k p s).2).le k⟩

theorem sem_le_den (k : Nat) (p : Parser α) : (sem C k p).le (den C p) := fun s =>
  ⟨((sem_lim p).parse s).le k, ((sem_lim p).look s).le k⟩

/-- the same outermost combinator, and sub-parsers that differ only in names -/
inductive Shape : Parser α → Parser α → Prop where
  | anyOf (arr) : Shape (.anyOf arr) (.anyOf arr)
  | noneOf (arr) : Shape (.noneOf arr) (.noneOf arr)
  | allOf (arr) : Shape (.allOf arr) (.allOf arr)
  | anything : Shape .anything .anything
  | epsilon : Shape .epsilon .epsilon
  | choice (ps qs) : List.Forall₂ (fun p q => p.unnamed = q.unnamed) ps qs →
      Parser.unnamedAll ps = Parser.unnamedAll qs → Shape (.choice ps) (.choice qs)
  | sequence (ps qs) : List.Forall₂ (fun p q => p.unnamed = q.unnamed) ps qs →
      Parser.unnamedAll ps = Parser.unnamedAll qs → Shape (.sequence ps) (.sequence qs)
  | maybe (p q) : p.unnamed = q.unnamed → Shape (.maybe p) (.maybe q)
  | exactly (p q n) : p.unnamed = q.unnamed → Shape (.exactly p n) (.exactly q n)
  | oneOrMore (p q) : p.unnamed = q.unnamed → Shape (.oneOrMore p) (.oneOrMore q)
  | zeroOrMore (p q) : p.unnamed = q.unnamed → Shape (.zeroOrMore p) (.zeroOrMore q)
  | delimit (p q d e) : p.unnamed = q.unnamed → d.unnamed = e.unnamed → Shape (.delimit p d) (.delimit q e)
  | ignore (p q) : p.unnamed = q.unnamed → Shape (.ignore p) (.ignore q)
  | complete (p q) : p.unnamed = q.unnamed → Shape (.complete p) (.complete q)
  | join (p q) : p.unnamed = q.unnamed → Shape (.join p) (.join q)
  | map (p q f) : p.unnamed = q.unnamed → Shape (.map p f) (.map q f)
  | filter (p q f) : p.unnamed = q.unnamed → Shape (.filter p f) (.filter q f)
  | custom (k) : Shape (.custom k) (.custom k)

theorem shape_of {p q : Parser α} (hp : ∀ r n, p ≠ .named r n)
    (hq : ∀ r n, q ≠ .named r n) (h : p.unnamed = q.unnamed) : Shape p q := by
  cases q with
  | named r n => exact absurd rfl (hq _ _)
  | anyOf arr =>
    cases p <;> simp only [Parser.unnamed, reduceCtorEq, Parser.anyOf.injEq] at h
    · subst h; exact .anyOf _
    · exact absurd rfl (hp _ _)
  | noneOf arr =>
    cases p <;> simp only [Parser.unnamed, reduceCtorEq, Parser.noneOf.injEq] at h
    · subst h; exact .noneOf _
    · exact absurd rfl (hp _ _)
  | allOf arr =>
    cases p <;> simp only [Parser.unnamed, reduceCtorEq, Parser.allOf.injEq] at h
    · subst h; exact .allOf _
    · exact absurd rfl (hp _ _)
  | anything =>
    cases p <;> simp only [Parser.unnamed, reduceCtorEq] at h
    · exact .anything
    · exact absurd rfl (hp _ _)
  | epsilon =>
    cases p <;> simp only [Parser.unnamed, reduceCtorEq] at h
    · exact .epsilon
    · exact absurd rfl (hp _ _)
  | choice qs =>
    cases p <;> simp only [Parser.unnamed, reduceCtorEq, Parser.choice.injEq] at h
    · exact .choice _ _ (unnamedAll_eq h) h
    · exact absurd rfl (hp _ _)
  | sequence qs =>
    cases p <;> simp only [Parser.unnamed, reduceCtorEq, Parser.sequence.injEq] at h
    · exact .sequence _ _ (unnamedAll_eq h) h
    · exact absurd rfl (hp _ _)
  | maybe q' =>
    cases p <;> simp only [Parser.unnamed, reduceCtorEq, Parser.maybe.injEq] at h
    · exact .maybe _ _ h
    · exact absurd rfl (hp _ _)
  | exactly q' n =>
    cases p <;> simp only [Parser.unnamed, reduceCtorEq, Parser.exactly.injEq] at h
    · obtain ⟨h, rfl⟩ := h; exact .exactly _ _ _ h
    · exact absurd rfl (hp _ _)
  | oneOrMore q' =>
    cases p <;> simp only [Parser.unnamed, reduceCtorEq, Parser.oneOrMore.injEq] at h
    · exact .oneOrMore _ _ h
    · exact absurd rfl (hp _ _)
  | zeroOrMore q' =>
    cases p <;> simp only [Parser.unnamed, reduceCtorEq, Parser.zeroOrMore.injEq] at h
    · exact .zeroOrMore _ _ h
    · exact absurd rfl (hp _ _)
  | delimit q' e =>
    cases p <;> simp only [Parser.unnamed, reduceCtorEq, Parser.delimit.injEq] at h
    · exact .delimit _ _ _ _ h.1 h.2
    · exact absurd rfl (hp _ _)
  | ignore q' =>
    cases p <;> simp only [Parser.unnamed, reduceCtorEq, Parser.ignore.injEq] at h
    · exact .ignore _ _ h
    · exact absurd rfl (hp _ _)
  | complete q' =>
    cases p <;> simp only [Parser.unnamed, reduceCtorEq, Parser.complete.injEq] at h
    · exact .complete _ _ h
    · exact absurd rfl (hp _ _)
  | join q' =>
    cases p <;> simp only [Parser.unnamed, reduceCtorEq, Parser.join.injEq] at h
    · exact .join _ _ h
    · exact absurd rfl (hp _ _)
  | map q' f =>
    cases p <;> simp only [Parser.unnamed, reduceCtorEq, Parser.map.injEq] at h
    · obtain ⟨h, rfl⟩ := h; exact .map _ _ _ h
    · exact absurd rfl (hp _ _)
  | filter q' f =>
    cases p <;> simp only [Parser.unnamed, reduceCtorEq, Parser.filter.injEq] at h
    · obtain ⟨h, rfl⟩ := h; exact .filter _ _ _ h
    · exact absurd rfl (hp _ _)
  | custom k =>
    cases p <;> simp only [Parser.unnamed, reduceCtorEq, Parser.custom.injEq] at h
    · exact absurd rfl (hp _ _)
    · subst h; exact .custom _

/-- `p.lookahead` may call `q.lookahead` -/
def LookChild (C : Ctx α β) (p q : Parser α) : Prop := ParseChild C p q ∨ p = .ignore q

theorem step_belowL {rec rec' : Parser α → Sub} (h : Simulates T U C C') (k : Nat) {p q : Parser α}
    (hp : ∀ r n, p ≠ .named r n) (hq : ∀ r n, q ≠ .named r n) (hj : ∀ r, p ≠ .join r)
    (hpq : p.unnamed = q.unnamed)
    (hL : ∀ p', LookChild C p p' → ∀ q' : Parser α, p'.unnamed = q'.unnamed → BelowL T U (rec p') (rec' q')) :
    BelowL T U (step C rec k p) (step C' rec' k q) := by
  intro s s' hs
  cases shape_of hp hq hpq with
  | anyOf arr | noneOf arr | allOf arr | anything => exact lookBasic_below h _ hs
  | epsilon => exact .pure (.successVoid hs)
  | choice ps qs hf hf' =>
    show Below T U (LikeR T U) (lookChoice C _ _ s) (lookChoice C' _ _ s')
    rw [resultsFor_alike h hf']
    exact lookChoice_below h _ (mkLookElems_below h hf fun p hp => hL _ (.inl (.choice hp))) hs
  | sequence ps qs hf hf' =>
    show Below T U (LikeR T U) (lookSequence C _ _ s) (lookSequence C' _ _ s')
    rw [resultsFor_alike h hf']
    exact lookSequence_below h _ (mkLookElems_below h hf fun p hp => hL _ (.inl (.sequence hp))) hs
  | maybe p' q' hf => exact lookMaybe_below (hL _ (.inl .maybe) _ hf) hs
  | exactly p' q' n hf => exact lookExactlyLoop_below (hL _ (.inl .exactly) _ hf) hs _ hs
  | oneOrMore p' q' hf => exact lookOneOrMore_below (hL _ (.inl .oneOrMore) _ hf) _ hs
  | zeroOrMore p' q' hf => exact lookZeroOrMore_below (hL _ (.inl .zeroOrMore) _ hf) _ hs
  | delimit p' q' d e hf hd =>
    exact lookDelimit_below (hL _ (.inl .delimit) _ hf) (hL _ (.inl .delimiter) _ hd) _ hs
  | ignore p' q' hf => exact hL _ (.inr rfl) _ hf _ _ hs
  | complete p' q' hf => exact complete_below h (hL _ (.inl .complete) _ hf _ _ hs) hs
  | join p' q' hf => exact absurd rfl (hj _)
  | map p' q' f hf => exact hL _ (.inl .map) _ hf _ _ hs
  | filter p' q' f hf => exact hL _ (.inl .filter) _ hf _ _ hs
  | custom j => exact hL _ (.inl .custom) _ (h.body j) _ _ hs

theorem step_belowP {rec rec' : Parser α → Sub} (h : Simulates T U C C') (k : Nat) {p q : Parser α}
    (hp : ∀ r n, p ≠ .named r n) (hq : ∀ r n, q ≠ .named r n) (hj : ∀ r, p ≠ .join r)
    (hpq : p.unnamed = q.unnamed) (hc : CallsAlike T U C C' p)
    (hL : ∀ p', LookChild C p p' → ∀ q' : Parser α, p'.unnamed = q'.unnamed → BelowL T U (rec p') (rec' q'))
    (hP : ∀ p', ParseChild C p p' → ∀ q' : Parser α, p'.unnamed = q'.unnamed → BelowP T U (rec p') (rec' q')) :
    BelowP T U (step C rec k p) (step C' rec' k q) := by
  intro s s' hs
  have hty := resultFor_alike h hpq
  cases shape_of hp hq hpq with
  | anyOf arr | noneOf arr | allOf arr | anything => exact parseBasic_below h _ hs
  | epsilon => exact .pure (.successVoid hs)
  | choice ps qs hf hf' =>
    show Below T U (LikeR T U) (parseChoice C _ _ s) (parseChoice C' _ _ s')
    rw [resultsFor_alike h hf']
    exact parseChoice_below h _ (mkElems_below h hf (fun p hp => hL _ (.inl (.choice hp)))
      (fun p hp => hP _ (.choice hp)) _) hs
  | sequence ps qs hf hf' =>
    show Below T U (LikeR T U) (parseSequence C _ _ s) (parseSequence C' _ _ s')
    rw [resultsFor_alike h hf']
    exact parseSequence_below h _ (mkElems_below h hf (fun p hp => hL _ (.inl (.sequence hp)))
      (fun p hp => hP _ (.sequence hp)) _) hs
  | maybe p' q' hf =>
    show Below T U (LikeR T U) (parseMaybe C _ _ s) (parseMaybe C' _ _ s')
    rw [hty]; exact parseMaybe_below h _ (hP _ .maybe _ hf) hs
  | exactly p' q' n hf =>
    show Below T U (LikeR T U) (parseExactly C _ _ _ s) (parseExactly C' _ _ _ s')
    rw [hty]
    exact .bind (builderInit_below h _) fun v w hv => exactlyLoop_below _ (hP _ .exactly _ hf) hs _ _ hs hv
  | oneOrMore p' q' hf =>
    show Below T U (LikeR T U) (parseOneOrMore C _ _ _ s) (parseOneOrMore C' _ _ _ s')
    rw [hty]; exact parseOneOrMore_below h _ (hP _ .oneOrMore _ hf) _ hs
  | zeroOrMore p' q' hf =>
    show Below T U (LikeR T U) (parseZeroOrMore C _ _ _ s) (parseZeroOrMore C' _ _ _ s')
    rw [hty]; exact parseZeroOrMore_below h _ (hP _ .zeroOrMore _ hf) _ hs
  | delimit p' q' d e hf hd =>
    show Below T U (LikeR T U) (parseDelimit C _ _ _ _ _ _ s) (parseDelimit C' _ _ _ _ _ _ s')
    rw [hty, resultFor_alike h hf, resultFor_alike h hd]
    exact parseDelimit_below h _ _ _ (hP _ .delimit _ hf) (hP _ .delimiter _ hd) _ hs
  | ignore p' q' hf => exact hL _ (.inr rfl) _ hf _ _ hs
  | complete p' q' hf => exact complete_below h (hP _ .complete _ hf _ _ hs) hs
  | join p' q' hf => exact absurd rfl (hj _)
  | map p' q' f hf =>
    show Below T U (LikeR T U) (parseMap C _ _ _ _ s) (parseMap C' _ _ _ _ s')
    rw [hty, resultFor_alike h hf]
    exact parseMap_below (hc.map _ _ .refl) _ _ (hP _ .map _ hf) hs
  | filter p' q' f hf =>
    show Below T U (LikeR T U) (parseFilter C _ _ _ s) (parseFilter C' _ _ _ s')
    rw [resultFor_alike h hf]
    exact parseFilter_below (hc.filter _ _ .refl) _ (hP _ .filter _ hf) hs
  | custom j =>
    show Below T U (LikeR T U) (parseCustom C _ _ _ s) (parseCustom C' _ _ _ s')
    rw [resultFor_alike h (h.body j), h.customTy j]
    exact parseCustom_below h _ _ (hP _ .custom _ (h.body j)) hs

theorem BelowL.le {P P' P'' : Sub} (h : BelowL T U P P') (hle : P'.le P'') : BelowL T U P P'' :=
  fun s s' hs => (h s s' hs).le (hle s').2
theorem BelowP.le {P P' P'' : Sub} (h : BelowP T U P P') (hle : P'.le P'') : BelowP T U P P'' :=
  fun s s' hs => (h s s' hs).le (hle s').1

/-- what is joined by a specialisation, without induction -/
theorem joinSpec_below (h : Simulates T U C C') {p q : Parser α} (hp : JoinSpec C p)
    (hpq : p.unnamed = q.unnamed) : BelowL T U (den C p) (den C' q) ∧ BelowP T U (den C p) (den C' q) := by
  -- the basic parser inside
  have basic : ∀ (p : Parser α) b, asBasic C p = some b → ∀ q, p.unnamed = q.unnamed →
      BelowL T U (den C p) (den C' q) ∧ BelowP T U (den C p) (den C' q) := by
    intro p b hb q hpq
    have h1 : ∀ r n, p ≠ .named r n := by rintro r n rfl; simp [asBasic] at hb
    have h2 : ∀ r, p ≠ .join r := by rintro r rfl; simp [asBasic] at hb
    have h3 : ∀ p', ¬ LookChild C p p' := by
      rintro p' (hc | rfl)
      · cases hc <;> simp [asBasic] at hb
      · simp [asBasic] at hb
    have hc : CallsAlike T U C C' p := by
      constructor <;> intro r f hr
      · cases hr with
        | refl => simp [asBasic] at hb
        | step hc => exact absurd (.inl hc) (h3 _)
      · cases hr with
        | refl => simp [asBasic] at hb
        | step hc => exact absurd (.inl hc) (h3 _)
    rw [← den_strip q]
    have hpq' : p.unnamed = q.strip.unnamed := by rw [strip_unnamed, hpq]
    have h4 := strip_not_named q
    constructor
    · intro s s' hs
      show Below T U _ (Look C p s) _
      rw [Look_eq]
      refine .lim (Mono.lim fun k => (step_fuel_le (den C) k p s).2) fun k => ?_
      exact (step_belowL h k h1 h4 h2 hpq' (fun p' hc => absurd hc (h3 _)) s s' hs).le
        (step_le_den k q.strip s').2
    · intro s s' hs
      show Below T U _ (Parse C p s) _
      rw [Parse_eq]
      refine .lim (Mono.lim fun k => (step_fuel_le (den C) k p s).1) fun k => ?_
      exact (step_belowP h k h1 h4 h2 hpq' hc (fun p' hc => absurd hc (h3 _))
        (fun p' hc => absurd (.inl hc) (h3 _)) s s' hs).le (step_le_den k q.strip s').1
  have h1 : ∀ r n, p ≠ .named r n := by rintro r n rfl; cases hp
  have h2 : ∀ r, p ≠ .join r := by rintro r rfl; cases hp
  have h3 : ∀ p', LookChild C p p' → ∃ b, asBasic C p' = some b := by
    rintro p' (hc | rfl)
    · cases hp <;> cases hc <;> exact ⟨_, by assumption⟩
    · cases hp
  have h3' : ∀ p', ParseChild C p p' → ∃ b, asBasic C p' = some b := fun p' hc => h3 p' (.inl hc)
  have hr : ∀ r, ParseReach C p r → (∀ q f, r ≠ .map q f) ∧ ∀ q f, r ≠ .filter q f := by
    intro r hr
    cases hr with
    | refl => cases hp <;> exact ⟨nofun, nofun⟩
    | step hc hr =>
      obtain ⟨b, hb⟩ := h3' _ hc
      cases hr with
      | refl => exact ⟨by rintro q f rfl; simp [asBasic] at hb, by rintro q f rfl; simp [asBasic] at hb⟩
      | step hc' => cases hc' <;> simp [asBasic] at hb
  have hc : CallsAlike T U C C' p :=
    ⟨fun q f hq => absurd rfl ((hr _ hq).1 q f), fun q f hq => absurd rfl ((hr _ hq).2 q f)⟩
  rw [← den_strip q]
  have hpq' : p.unnamed = q.strip.unnamed := by rw [strip_unnamed, hpq]
  have h4 := strip_not_named q
  constructor
  · intro s s' hs
    show Below T U _ (Look C p s) _
    rw [Look_eq]
    refine .lim (Mono.lim fun k => (step_fuel_le (den C) k p s).2) fun k => ?_
    refine (step_belowL h k h1 h4 h2 hpq' (fun p' hc q' hq => ?_) s s' hs).le (step_le_den k q.strip s').2
    obtain ⟨b, hb⟩ := h3 _ hc
    exact (basic _ _ hb _ hq).1
  · intro s s' hs
    show Below T U _ (Parse C p s) _
    rw [Parse_eq]
    refine .lim (Mono.lim fun k => (step_fuel_le (den C) k p s).1) fun k => ?_
    refine (step_belowP h k h1 h4 h2 hpq' hc (fun p' hc q' hq => ?_) (fun p' hc q' hq => ?_) s s' hs).le
      (step_le_den k q.strip s').1
    · obtain ⟨b, hb⟩ := h3 _ hc
      exact (basic _ _ hb _ hq).1
    · obtain ⟨b, hb⟩ := h3' _ hc
      exact (basic _ _ hb _ hq).2

theorem sem_below (h : Simulates T U C C') (n : Nat) : ∀ p q : Parser α, p.unnamed = q.unnamed →
    BelowL T U (sem C n p) (den C' q) ∧ (CallsAlike T U C C' p → BelowP T U (sem C n p) (den C' q)) := by
  induction n with
  | zero => exact fun p q _ => ⟨fun _ _ _ => .diverge, fun _ _ _ _ => .diverge⟩
  | succ n ih =>
    intro p q hpq
    have h4 := strip_not_named q
    by_cases hn : ∃ r m, p = .named r m
    · obtain ⟨r, m, rfl⟩ := hn
      rw [Parser.unnamed] at hpq
      exact ⟨(ih r q hpq).1, fun hc => (ih r q hpq).2 (hc.child .named)⟩
    have h1 : ∀ r m, p ≠ .named r m := fun r m he => hn ⟨r, m, he⟩
    rw [← den_strip q]
    rw [← strip_unnamed q] at hpq
    by_cases hj : ∃ r, p = .join r
    · obtain ⟨r, rfl⟩ := hj
      obtain ⟨q', he, hq⟩ : ∃ q', q.strip = .join q' ∧ r.unnamed = q'.unnamed := by
        cases hc : q.strip with
        | join q' =>
          rw [hc] at hpq; simp only [Parser.unnamed, Parser.join.injEq] at hpq; exact ⟨q', rfl, hpq⟩
        | named => exact absurd hc (h4 _ _)
        | _ => rw [hc] at hpq; simp [Parser.unnamed] at hpq
      rw [he]
      by_cases hs : JoinSpec C r
      · obtain ⟨b1, b2⟩ := joinSpec_below h hs hq
        refine ⟨fun s s' hs => ?_, fun _ s s' hs => ?_⟩
        · show Below T U _ _ (Look C' (.join q') s')
          rw [Look_join_eq]
          refine .ge (b1 s s' hs) ?_
          have := (sem_le_den (C := C) (n + 1) (.join r) s).2
          rwa [show (den C (.join r)).look s = Look C r s from Look_join_eq r s] at this
        · show Below T U _ _ (Parse C' (.join q') s')
          rw [Parse_join_eq]
          refine .ge (parseJoin_below h b2 hs) ?_
          have := (sem_le_den (C := C) (n + 1) (.join r) s).1
          rwa [show (den C (.join r)).parse s = _ from Parse_join_eq r s] at this
      · have hg : sem C (n + 1) (.join r) = joinGeneric C (sem C n r) := semJoin_generic r hs
        rw [hg]
        refine ⟨fun s s' hs => ?_, fun hc s s' hs => ?_⟩
        · show Below T U _ _ (Look C' (.join q') s')
          rw [Look_join_eq]
          exact (ih r q' hq).1 s s' hs
        · show Below T U _ _ (Parse C' (.join q') s')
          rw [Parse_join_eq]
          exact parseJoin_below h ((ih r q' hq).2 (hc.child .join)) hs
    have h2 : ∀ r, p ≠ .join r := fun r he => hj ⟨r, he⟩
    constructor
    · exact (step_belowL h n h1 h4 h2 hpq (fun p' _ q' hq => (ih p' q' hq).1)).le (step_le_den n _)
    · intro hc
      exact (step_belowP h n h1 h4 h2 hpq hc (fun p' _ q' hq => (ih p' q' hq).1)
        (fun p' hp q' hq => (ih p' q' hq).2 (hc.child hp))).le (step_le_den n _)

/-- One direction of the simulation. -/
theorem Parse_below (h : Simulates T U C C') {p q : Parser α} (hpq : p.unnamed = q.unnamed)
    (hc : CallsAlike T U C C' p) {s s' : Span} (hs : T s s') :
    Below T U (LikeR T U) (Parse C p s) (Parse C' q s') :=
  .lim ((sem_lim p).parse s) fun n => (sem_below h n p q hpq).2 hc s s' hs

theorem Look_below (h : Simulates T U C C') {p q : Parser α} (hpq : p.unnamed = q.unnamed)
    {s s' : Span} (hs : T s s') : Below T U (LikeR T U) (Look C p s) (Look C' q s') :=
  .lim ((sem_lim p).look s) fun n => (sem_below h n p q hpq).1 s s' hs

end

end Tok3n
