import Verif.Proof.Modify
import Verif.Proof.Reach
import Verif.Proof.Alike
import Verif.Spec.Example
/-
Properties C33, C42, C50: what the result of a parse does not depend on.
-/

namespace Tok3n

variable {α β A B : Type} {C C' : Ctx α β} {T : Span → Span → Prop}

/-! ### Custom parsers -/

theorem defaultVal_custom (C : Ctx α β) (c : Nat → CustomDef α) (t : Ty)
    (h : Simulates Eq Eq C { C with custom := c }) : defaultVal { C with custom := c } t = defaultVal C t := by
  have := defaultVal_alike h t
  revert this
  generalize defaultVal C t = a
  generalize defaultVal { C with custom := c } t = b
  intro this
  cases a <;> cases b
  · rfl
  · exact this.elim
  · exact this.elim
  · rw [like_eq (fun _ _ h => h) (fun _ _ h => h) _ _ this]

theorem invoke_custom (C : Ctx α β) (c : Nat → CustomDef α) (h : Simulates Eq Eq C { C with custom := c }) (f : Fn)
    (args : List Val) : invoke { C with custom := c } f args = invoke C f args := by
  induction f generalizing args with
  | user k => rfl
  | apply f ih =>
    simp only [invoke]
    split
    · split
      · exact ih _
      · rfl
    · rfl
  | const k => rfl
  | construct t => rfl
  | deflt t => simp only [invoke, defaultVal_custom C c t h]

theorem callsAlike_names (c : Nat → CustomDef α) (h : Simulates Eq Eq C { C with custom := c }) (p : Parser α) :
    CallsAlike Eq Eq C { C with custom := c } p := by
  constructor
  · intro q f _ args args' ha
    rw [← likes_eq (fun _ _ h => h) (fun _ _ h => h) _ _ ha, invoke_custom C c h]
    exact .refl (fun _ => rfl) (fun _ => rfl) fun v => like_refl (fun _ => rfl) (fun _ => rfl) v
  · intro q f _ args args' ha
    rw [← likes_eq (fun _ _ h => h) (fun _ _ h => h) _ _ ha, invoke_custom C c h]
    exact .refl (fun _ => rfl) (fun _ => rfl) fun v => rfl

/-! ## C33 Names have no effect on parsing -/

/-- Two expressions that differ only in the names given to their sub-parsers, and to the
sub-parsers of the custom parsers, behave in the same way: `parse` and `lookahead` return the same,
run the same callbacks, or both do not return; and the result types are the same. -/
theorem C33_names (c : Nat → CustomDef α) (hty : ∀ k, (c k).ty = (C.custom k).ty)
    (hbody : ∀ k, (c k).body.unnamed = (C.custom k).body.unnamed)
    (p q : Parser α) (hpq : p.unnamed = q.unnamed) :
    (∀ s, Parse { C with custom := c } q s = Parse C p s) ∧
    (∀ s, Look { C with custom := c } q s = Look C p s) ∧
    resultFor { C with custom := c } q = resultFor C p := by
  have h : Simulates Eq Eq C { C with custom := c } := .names ⟨c, rfl⟩ (fun k => (hty k).symm) fun k => (hbody k).symm
  have h' : Simulates Eq Eq { C with custom := c } { { C with custom := c } with custom := C.custom } :=
    .names ⟨_, rfl⟩ hty hbody
  refine ⟨fun s => ?_, fun s => ?_, (resultFor_alike h hpq).symm⟩
  · have h1 := Parse_below h hpq (callsAlike_names c h p) (s := s) rfl
    have h2 := Parse_below h' hpq.symm (callsAlike_names _ h' q) (s := s) rfl
    exact ((h1.run h2).eq fun _ _ => LikeR.eq).symm
  · have h1 := Look_below h hpq (s := s) rfl
    have h2 := Look_below h' hpq.symm (s := s) rfl
    exact ((h1.run h2).eq fun _ _ => LikeR.eq).symm

mutual
theorem tyOK_unnamed : ∀ p : Parser α, tyOK C p.unnamed = tyOK C p
  | .anyOf _ | .noneOf _ | .allOf _ | .anything | .epsilon | .ignore _ | .join _ | .custom _ => by
    simp [Parser.unnamed, tyOK]
  | .choice ps => by simp [Parser.unnamed, tyOK, tysOK_unnamed ps]
  | .sequence ps => by simp [Parser.unnamed, tyOK, tysOK_unnamed ps]
  | .maybe p => by simp [Parser.unnamed, tyOK, tyOK_unnamed p]
  | .exactly p n => by simp [Parser.unnamed, tyOK, tyOK_unnamed p]
  | .oneOrMore p => by simp [Parser.unnamed, tyOK, tyOK_unnamed p]
  | .zeroOrMore p => by simp [Parser.unnamed, tyOK, tyOK_unnamed p]
  | .delimit p d => by simp [Parser.unnamed, tyOK, tyOK_unnamed p, tyOK_unnamed d]
  | .complete p => by simp [Parser.unnamed, tyOK, tyOK_unnamed p]
  | .map p f => by
    simp [Parser.unnamed, tyOK, tyOK_unnamed p,
      resultFor_unnamed (Simulates.names (C := C) ⟨_, rfl⟩ (fun _ => rfl) fun _ => rfl) p]
  | .filter p f => by
    simp [Parser.unnamed, tyOK, tyOK_unnamed p,
      resultFor_unnamed (Simulates.names (C := C) ⟨_, rfl⟩ (fun _ => rfl) fun _ => rfl) p]
  | .named p n => by simp [Parser.unnamed, tyOK, tyOK_unnamed p]
theorem tysOK_unnamed : ∀ ps : List (Parser α), tysOK C (Parser.unnamedAll ps) = tysOK C ps
  | [] => by simp [Parser.unnamedAll]
  | p :: ps => by simp [Parser.unnamedAll, tysOK, tyOK_unnamed p, tysOK_unnamed ps]
end

/-- `parse` compiles only if the result type is well-formed -/
theorem parseOK_tyOK : ∀ p : Parser α, parseOK C p = true → tyOK C p = true
  | .anyOf _, _ | .noneOf _, _ | .allOf _, _ | .anything, _ | .epsilon, _ | .ignore _, _ | .join _, _
  | .custom _, _ => by simp [tyOK]
  | .choice ps, h => by simp only [parseOK, Bool.and_eq_true] at h; simpa only [tyOK] using h.1.1.1
  | .sequence ps, h => by simp only [parseOK, Bool.and_eq_true] at h; simpa only [tyOK] using h.1.1.1
  | .maybe p, h => by simp only [parseOK, Bool.and_eq_true] at h; simpa only [tyOK] using h.1
  | .exactly p n, h => by simp only [parseOK, Bool.and_eq_true] at h; simpa only [tyOK] using h.1.1
  | .oneOrMore p, h => by simp only [parseOK, Bool.and_eq_true] at h; simpa only [tyOK] using h.1
  | .zeroOrMore p, h => by simp only [parseOK, Bool.and_eq_true] at h; simpa only [tyOK] using h.1
  | .delimit p d, h => by
    simp only [parseOK, Bool.and_eq_true] at h; simpa only [tyOK, Bool.and_eq_true] using h.1.1
  | .complete p, h => by simp only [parseOK, Bool.and_eq_true] at h; simpa only [tyOK] using h.1
  | .map p f, h => by simp only [parseOK, Bool.and_eq_true] at h; exact h.1
  | .filter p f, h => by simp only [parseOK, Bool.and_eq_true] at h; exact h.1
  | .named p n, h => by simp only [parseOK, Bool.and_eq_true] at h; simpa only [tyOK] using h.1

mutual
theorem parseOK_unnamed : ∀ p : Parser α, parseOK C p.unnamed = parseOK C p
  | .anyOf _ | .noneOf _ | .allOf _ | .anything | .epsilon | .ignore _ | .custom _ => by
    simp [Parser.unnamed, parseOK]
  | .choice ps => by
    simp only [Parser.unnamed, parseOK, tysOK_unnamed ps, parsesOK_unnamed ps,
      resultsFor_unnamed (Simulates.names (C := C) ⟨_, rfl⟩ (fun _ => rfl) fun _ => rfl) ps]
  | .sequence ps => by
    simp only [Parser.unnamed, parseOK, tysOK_unnamed ps, parsesOK_unnamed ps,
      resultsFor_unnamed (Simulates.names (C := C) ⟨_, rfl⟩ (fun _ => rfl) fun _ => rfl) ps]
  | .maybe p => by simp [Parser.unnamed, parseOK, tyOK_unnamed p, parseOK_unnamed p]
  | .exactly p n => by
    simp [Parser.unnamed, parseOK, tyOK_unnamed p, parseOK_unnamed p,
      resultFor_unnamed (Simulates.names (C := C) ⟨_, rfl⟩ (fun _ => rfl) fun _ => rfl) p]
  | .oneOrMore p => by simp [Parser.unnamed, parseOK, tyOK_unnamed p, parseOK_unnamed p]
  | .zeroOrMore p => by simp [Parser.unnamed, parseOK, tyOK_unnamed p, parseOK_unnamed p]
  | .delimit p d => by
    simp [Parser.unnamed, parseOK, tyOK_unnamed p, tyOK_unnamed d, parseOK_unnamed p, parseOK_unnamed d]
  | .complete p => by simp [Parser.unnamed, parseOK, tyOK_unnamed p, parseOK_unnamed p]
  | .join p => by
    simp [Parser.unnamed, parseOK, tyOK_unnamed p, parseOK_unnamed p,
      resultFor_unnamed (Simulates.names (C := C) ⟨_, rfl⟩ (fun _ => rfl) fun _ => rfl) p]
  | .map p f => by
    have := tyOK_unnamed (C := C) (.map p f)
    simp only [Parser.unnamed] at this
    simp [Parser.unnamed, parseOK, this, parseOK_unnamed p]
  | .filter p f => by
    have := tyOK_unnamed (C := C) (.filter p f)
    simp only [Parser.unnamed] at this
    simp [Parser.unnamed, parseOK, this, parseOK_unnamed p]
  | .named p n => by
    rw [Parser.unnamed, parseOK, parseOK_unnamed p]
    cases h : parseOK C p with
    | true => simp [parseOK_tyOK p h]
    | false => simp
theorem parsesOK_unnamed : ∀ (ps : List (Parser α)) (is : List (Option Nat)),
    parsesOK C (Parser.unnamedAll ps) is = parsesOK C ps is
  | [], is => by simp [Parser.unnamedAll, parsesOK]
  | p :: ps, [] => by simp [Parser.unnamedAll, parsesOK]
  | p :: ps, none :: is => by simp [Parser.unnamedAll, parsesOK, parsesOK_unnamed ps is]
  | p :: ps, some i :: is => by simp [Parser.unnamedAll, parsesOK, parseOK_unnamed p, parsesOK_unnamed ps is]
end

mutual
theorem wf_unnamed [LinearOrder α] : ∀ p : Parser α, p.unnamed.wf = p.wf
  | .anyOf _ | .noneOf _ | .allOf _ | .anything | .epsilon | .custom _ => by simp [Parser.unnamed]
  | .choice [] => by simp [Parser.unnamed, Parser.unnamedAll]
  | .choice (p :: ps) => by
    simp [Parser.unnamed, Parser.wf, Parser.wfs, Parser.unnamedAll, wf_unnamed p, wfs_unnamed ps]
  | .sequence [] => by simp [Parser.unnamed, Parser.unnamedAll]
  | .sequence (p :: ps) => by
    simp [Parser.unnamed, Parser.wf, Parser.wfs, Parser.unnamedAll, wf_unnamed p, wfs_unnamed ps]
  | .maybe p => by simp [Parser.unnamed, Parser.wf, wf_unnamed p]
  | .exactly p n => by simp [Parser.unnamed, Parser.wf, wf_unnamed p]
  | .oneOrMore p => by simp [Parser.unnamed, Parser.wf, wf_unnamed p]
  | .zeroOrMore p => by simp [Parser.unnamed, Parser.wf, wf_unnamed p]
  | .delimit p d => by simp [Parser.unnamed, Parser.wf, wf_unnamed p, wf_unnamed d]
  | .ignore p => by simp [Parser.unnamed, Parser.wf, wf_unnamed p]
  | .complete p => by simp [Parser.unnamed, Parser.wf, wf_unnamed p]
  | .join p => by simp [Parser.unnamed, Parser.wf, wf_unnamed p]
  | .map p f => by simp [Parser.unnamed, Parser.wf, wf_unnamed p]
  | .filter p f => by simp [Parser.unnamed, Parser.wf, wf_unnamed p]
  | .named p n => by simp [Parser.unnamed, Parser.wf, wf_unnamed p]
theorem wfs_unnamed [LinearOrder α] : ∀ ps : List (Parser α), Parser.wfs (Parser.unnamedAll ps) = Parser.wfs ps
  | [] => by simp [Parser.unnamedAll]
  | p :: ps => by simp [Parser.unnamedAll, Parser.wfs, wf_unnamed p, wfs_unnamed ps]
end

/-- Names do not decide what compiles either. -/
theorem C33_compiles [LinearOrder α] (p q : Parser α) (hpq : p.unnamed = q.unnamed) :
    Compiles C p ↔ Compiles C q := by
  have hw : p.wf = q.wf := by rw [← wf_unnamed p, hpq, wf_unnamed]
  have ht : tyOK C p = tyOK C q := by rw [← tyOK_unnamed p, hpq, tyOK_unnamed]
  have hp : parseOK C p = parseOK C q := by rw [← parseOK_unnamed p, hpq, parseOK_unnamed]
  exact ⟨fun h => ⟨h.ctx, hw ▸ h.wf, ht ▸ h.ty, hp ▸ h.parse⟩,
    fun h => ⟨h.ctx, hw ▸ h.wf, ht ▸ h.ty, hp ▸ h.parse⟩⟩

/-- A name under `join` selects the generic code instead of a specialisation; the result is the
same. -/
example : ∃ v s', Parses (Ex.ctx "aab") (.join (.zeroOrMore (.named (Ex.all "a") ⟨0, [1]⟩))) (Ex.input "aab") [] v s' ∧
    Parses (Ex.ctx "aab") (.join (.zeroOrMore (Ex.all "a"))) (Ex.input "aab") [] v s' ∧ v = .span ⟨.at 0 0, 2⟩ :=
  ⟨.span ⟨.at 0 0, 2⟩, ⟨.at 0 2, 1⟩, Ex.parses _ 6 rfl, Ex.parses _ 6 rfl, rfl⟩

/-! ## C42 Results depend only on the elements of the input -/

theorem Shifted.symm {s s' t t' : Span} (hl : s'.len = s.len) (h : Shifted s s' t t') : Shifted s' s t' t := by
  rcases h with h | ⟨h1, i, h2, h3, h4⟩
  · exact .inl ⟨h.2, h.1⟩
  · exact .inr ⟨h1.symm, i, by omega, h4, h3⟩

mutual
theorem Alike.swap {T T' : Span → Span → Prop} (hT : ∀ a b, T a b → T' b a) :
    ∀ v w, Alike T v w → Alike T' w v
  | .unit, w, h => by simp only [Alike] at h; subst h; simp [Alike]
  | .span s, w, h => by
    simp only [Alike] at h; obtain ⟨s', rfl, h⟩ := h; simp only [Alike]; exact ⟨_, rfl, hT _ _ h⟩
  | .vec vs, w, h | .arr vs, w, h | .tup vs, w, h | .user _ _ vs, w, h => by
    simp only [Alike] at h; obtain ⟨ws, rfl, h⟩ := h; simp only [Alike]; exact ⟨_, rfl, Alikes.swap hT _ _ h⟩
  | .opt none, w, h => by simp only [Alike] at h; subst h; simp [Alike]
  | .opt (some v), w, h => by
    simp only [Alike] at h; obtain ⟨s', rfl, h⟩ := h; simp only [Alike]; exact ⟨_, rfl, Alike.swap hT _ _ h⟩
  | .var _ v, w, h => by
    simp only [Alike] at h; obtain ⟨s', rfl, h⟩ := h; simp only [Alike]; exact ⟨_, rfl, Alike.swap hT _ _ h⟩
  | .pair a b, w, h => by
    simp only [Alike] at h; obtain ⟨a', b', rfl, h, h'⟩ := h
    simp only [Alike]; exact ⟨_, _, rfl, Alike.swap hT _ _ h, Alike.swap hT _ _ h'⟩
theorem Alikes.swap {T T' : Span → Span → Prop} (hT : ∀ a b, T a b → T' b a) :
    ∀ vs ws, Alikes T vs ws → Alikes T' ws vs
  | [], ws, h => by simp only [Alikes] at h; subst h; exact .nil
  | v :: vs, ws, h => by
    simp only [Alikes] at h; obtain ⟨w, ws', rfl, h, h'⟩ := h
    exact .cons (Alike.swap hT _ _ h) (Alikes.swap hT _ _ h')
end

theorem AlikeLog.swap {T T' : Span → Span → Prop} (hT : ∀ a b, T a b → T' b a) {l l' : List Call}
    (h : AlikeLog T l l') : AlikeLog T' l' l :=
  h.flip.imp fun _ _ hc => ⟨hc.1.symm, Alikes.swap hT _ _ hc.2⟩

theorem AlikeRun.swap {T T' : Span → Span → Prop} (hT : ∀ a b, T a b → T' b a) {Q : A → B → Prop}
    {Q' : B → A → Prop} (hQ : ∀ a b, Q a b → Q' b a) {m : Run A} {m' : Run B} (h : AlikeRun T Q m m') :
    AlikeRun T' Q' m' m := by
  cases m with
  | diverge =>
    cases m' with
    | diverge => trivial
    | done l r => cases r <;> exact h.elim
  | done l r =>
    cases m' with
    | diverge => cases r <;> exact h.elim
    | done l' r' =>
      cases r <;> cases r'
      · exact ⟨h.1.swap hT, hQ _ _ h.2⟩
      · exact h.elim
      · exact h.elim
      · exact ⟨h.1.swap hT, h.2.symm⟩

theorem ParseChild.congr {p q : Parser α} (hc : C.custom = C'.custom) (h : ParseChild C p q) : ParseChild C' p q := by
  cases h with
  | choice h => exact .choice h
  | sequence h => exact .sequence h
  | maybe => exact .maybe
  | exactly => exact .exactly
  | oneOrMore => exact .oneOrMore
  | zeroOrMore => exact .zeroOrMore
  | delimit => exact .delimit
  | delimiter => exact .delimiter
  | complete => exact .complete
  | join => exact .join
  | map => exact .map
  | filter => exact .filter
  | named => exact .named
  | custom => rw [hc]; exact .custom

theorem ParseReach.congr {p q : Parser α} (hc : C.custom = C'.custom) (h : ParseReach C p q) : ParseReach C' p q := by
  induction h with
  | refl => exact .refl
  | step h _ ih => exact .step (h.congr hc) ih

theorem PositionIndependent.swap {T T' : Span → Span → Prop} (hT : ∀ a b, T a b → T' b a)
    (hT' : ∀ a b, T' a b → T b a) {p : Parser α} (hc : C.custom = C'.custom)
    (h : PositionIndependent T C C' p) : PositionIndependent T' C' C p where
  dflt k := (h.dflt k).swap fun _ _ h => Alike.swap hT _ _ h
  conv a b := (h.conv a b).swap fun _ _ h v w hv => Alike.swap hT _ _ (h w v (Alike.swap hT' _ _ hv))
  convOpt a b := (h.convOpt a b).swap fun _ _ h v w hv =>
    Alike.swap hT _ _ (h w v (hv.swap fun _ _ h => Alike.swap hT' _ _ h))
  toSpan k := (h.toSpan k).swap fun _ _ h v w hv => hT _ _ (h w v (Alike.swap hT' _ _ hv))
  map q f hr args args' ha := (h.map q f (hr.congr hc.symm) args' args (Alikes.swap hT' _ _ ha)).swap hT
    fun _ _ h => Alike.swap hT _ _ h
  filter q f hr args args' ha := (h.filter q f (hr.congr hc.symm) args' args (Alikes.swap hT' _ _ ha)).swap hT
    fun _ _ h => h.symm

theorem PositionIndependent.calls {p : Parser α} (h : PositionIndependent T C C' p) : CallsAlike T (Alike T) C C' p :=
  ⟨fun q f hr args args' ha => by
      rw [likes_alikes] at ha; rw [like_alike]; exact (h.map q f hr args args' ha).below,
    fun q f hr args args' ha => by
      rw [likes_alikes] at ha; exact (h.filter q f hr args args' ha).below⟩

/-- adjacency inside one array -/
theorem adjacent_same (C : Ctx α β) {b o o' n m : Nat} (hv : o + n ≤ (C.mem b).length) :
    adjacent C ⟨.at b o, n⟩ ⟨.at b o', m⟩ = M.pure (decide (o + n = o')) := by
  unfold adjacent
  cases C.toolchain with
  | msvc =>
    simp only [Ptr.add, if_pos hv, M.bind_eq, M.pure_bind, if_true]
    congr 1
  | gnuRuntime =>
    simp only [if_true]
    congr 1
    by_cases h : o + n = o' <;> simp [h] <;> omega
  | gnuConstexpr =>
    simp only [if_true]
    congr 1
    by_cases h : o + n = o' <;> simp [h] <;> omega

theorem simulates_shifted {s s' : Span} (hP : SameProgram C C') (hs : s.Valid C.mem) (hs' : s'.Valid C'.mem)
    (he : s.elems C.mem = s'.elems C'.mem) (hl : s'.len = s.len) {p : Parser α}
    (hi : PositionIndependent (Shifted s s') C C' p) : Simulates (Shifted s s') (Alike (Shifted s s')) C C' where
  eqv := hP.eqv
  fnRet := hP.fnRet
  constTy := hP.constTy
  ctorOk := hP.ctorOk
  dflt := by rw [like_alike]; exact hi.dflt
  conv := by rw [like_alike]; exact hi.conv
  convOpt := by rw [like_alike]; exact hi.convOpt
  toSpan := by rw [like_alike]; exact hi.toSpan
  customTy k := by rw [hP.custom]
  body k := by rw [hP.custom]
  null := .inl ⟨rfl, rfl⟩
  len := by
    rintro t t' (⟨rfl, rfl⟩ | ⟨h, -⟩)
    · rfl
    · exact h.symm
  read := by
    rintro t t' (⟨rfl, rfl⟩ | ⟨h, i, h1, h2, h3⟩) j hj
    · simp [Span.default] at hj
    · rw [h2, h3]
      cases hp : s.ptr with
      | null => simp only [Span.Valid, hp] at hs; omega
      | «at» b o =>
        cases hp' : s'.ptr with
        | null => simp only [Span.Valid, hp'] at hs'; omega
        | «at» b' o' =>
          simp only [Ptr.plus, Ptr.read]
          simp only [Span.elems, hp, hp'] at he
          have := congrArg (·[i + j]?) he
          simp only [List.getElem?_take, List.getElem?_drop] at this
          rw [if_pos (by omega), if_pos (by omega)] at this
          rw [Nat.add_assoc, this, Nat.add_assoc]
  add := by
    rintro t t' (⟨rfl, rfl⟩ | ⟨h, i, h1, h2, h3⟩) n hn
    · have : n = 0 := by simpa [Span.default] using hn
      subst this
      exact .pure (.inl ⟨rfl, rfl⟩)
    · rw [h2, h3]
      have key : ∀ (m : Mem β) (x : Span), x.Valid m → x.len = s.len →
          (Ptr.add m (x.ptr.plus i) n : Run Ptr) = M.pure (x.ptr.plus (i + n)) := by
        intro m x hx hl
        cases hp : x.ptr with
        | null =>
          simp only [Span.Valid, hp] at hx
          simp only [Ptr.plus, Ptr.add, if_pos (show n = 0 by omega)]
        | «at» b o =>
          simp only [Span.Valid, hp] at hx
          simp only [Ptr.plus, Ptr.add]
          rw [if_pos (by omega), Nat.add_assoc]
      rw [key _ _ hs rfl, key _ _ hs' hl]
      exact .pure (.inr ⟨rfl, i + n, by simp only; omega, rfl, rfl⟩)
  take := by
    rintro t t' (⟨rfl, rfl⟩ | ⟨h, i, h1, h2, h3⟩) n hn
    · have : n = 0 := by simpa [Span.default] using hn
      subst this
      exact .inl ⟨rfl, rfl⟩
    · exact .inr ⟨rfl, i, by simp only; omega, h2, h3⟩
  adj := by
    rintro j j' o o' (⟨rfl, rfl⟩ | ⟨h, i, h1, h2, h3⟩) ho hj0 ho0
    · exact absurd rfl hj0
    rcases ho with ⟨rfl, rfl⟩ | ⟨k, i', k1, k2, k3⟩
    · exact absurd rfl ho0
    obtain ⟨jp, jl⟩ := j
    obtain ⟨jp', jl'⟩ := j'
    obtain ⟨op, ol⟩ := o
    obtain ⟨op', ol'⟩ := o'
    simp only at h h1 h2 h3 k k1 k2 k3 hj0 ho0 ⊢
    subst h h2 h3 k k2 k3
    cases hp : s.ptr with
    | null => simp only [Span.Valid, hp] at hs; omega
    | «at» b o =>
      cases hp' : s'.ptr with
      | null => simp only [Span.Valid, hp'] at hs'; omega
      | «at» b' o' =>
        simp only [Span.Valid, hp] at hs
        simp only [Span.Valid, hp'] at hs'
        simp only [Ptr.plus]
        rw [adjacent_same C (by omega), adjacent_same C' (by omega)]
        refine .pure ⟨by rw [decide_eq_decide]; omega, fun hd => .inr ⟨rfl, i, ?_, ?_, ?_⟩⟩
        · have := of_decide_eq_true hd
          simp only; omega
        · simp only [hp, Ptr.plus]
        · simp only [hp', Ptr.plus]

theorem elems_length {m : Mem β} {s : Span} (hs : s.Valid m) : (s.elems m).length = s.len := by
  obtain ⟨p, n⟩ := s
  cases p with
  | null => simpa [Span.Valid, Span.elems] using hs.symm
  | «at» b o =>
    simp only [Span.Valid] at hs
    simp only [Span.elems, List.length_take, List.length_drop]
    omega

/-- Parsing (or looking ahead at) two inputs with equal elements, wherever they are stored and
whatever else is in memory, with user code that does not depend on where spans point: neither
returns, or both do after the same callbacks on corresponding arguments, with the same exception, or
with corresponding results: both fail or both succeed, the values are the same up to relocation of
the spans, and what remains are corresponding parts. -/
theorem C42_relocation (p : Parser α) (s s' : Span) (hP : SameProgram C C') (hs : s.Valid C.mem)
    (hs' : s'.Valid C'.mem) (he : s.elems C.mem = s'.elems C'.mem)
    (hi : PositionIndependent (Shifted s s') C C' p) :
    AlikeRun (Shifted s s') (AlikeR (Shifted s s')) (Parse C p s) (Parse C' p s') ∧
    AlikeRun (Shifted s s') (AlikeR (Shifted s s')) (Look C p s) (Look C' p s') := by
  have hl : s'.len = s.len := by rw [← elems_length hs, he, elems_length hs']
  have hi' := hi.swap (fun _ _ => Shifted.symm hl) (fun _ _ => Shifted.symm hl.symm) hP.custom
  have hP' : SameProgram C' C := ⟨hP.eqv.symm, hP.fnRet.symm, hP.constTy.symm, hP.ctorOk.symm, hP.custom.symm⟩
  have h1 := simulates_shifted hP hs hs' he hl hi
  have h2 := simulates_shifted hP' hs' hs he.symm hl.symm hi'
  have plus0 : ∀ q : Ptr, q = q.plus 0 := fun q => by cases q <;> rfl
  have t1 : Shifted s s' s s' := .inr ⟨hl, 0, by omega, plus0 _, plus0 _⟩
  rw [← likeR_alikeR, ← likeRun_alikeRun]
  exact ⟨(Parse_below h1 rfl hi.calls t1).run (Parse_below h2 rfl hi'.calls (t1.symm hl)),
    (Look_below h1 rfl t1).run (Look_below h2 rfl (t1.symm hl))⟩

/-- In particular as many elements are consumed. -/
theorem C42_consumed (p : Parser α) (s s' : Span) (hP : SameProgram C C') (hs : s.Valid C.mem)
    (hs' : s'.Valid C'.mem) (he : s.elems C.mem = s'.elems C'.mem)
    (hi : PositionIndependent (Shifted s s') C C' p) {log v t} (h : Parses C p s log v t) :
    ∃ log' v' t', Parses C' p s' log' v' t' ∧ t'.len = t.len ∧ t'.elems C'.mem = t.elems C.mem ∧
      Alike (Shifted s s') v v' := by
  have hl : s'.len = s.len := by rw [← elems_length hs, he, elems_length hs']
  have h1 := (C42_relocation p s s' hP hs hs' he hi).1
  rw [show Parse C p s = _ from h] at h1
  cases h2 : Parse C' p s' with
  | diverge => rw [h2] at h1; exact h1.elim
  | done l' r' =>
    rw [h2] at h1
    cases r' with
    | err e => exact h1.elim
    | ok r' =>
      obtain ⟨v', t'⟩ := r'
      cases v' with
      | none => exact h1.2.val.elim
      | some v' =>
        have h3 := (simulates_shifted hP hs hs' he hl hi).len h1.2.rem
        have h4 : Shifted s s' t t' := h1.2.rem
        refine ⟨l', v', t', h2, h3.symm, ?_, h1.2.val⟩
        rcases h4 with ⟨rfl, rfl⟩ | ⟨h5, i, h6, h7, h8⟩
        · rfl
        · have e1 : t.elems C.mem = ((s.elems C.mem).drop i).take t.len := by
            simp only [Span.elems, h7]
            cases hp : s.ptr with
            | null => simp [Ptr.plus]
            | «at» b o =>
              simp only [Ptr.plus, List.drop_take, List.take_take, List.drop_drop]
              congr 1; omega
          have e2 : t'.elems C'.mem = ((s'.elems C'.mem).drop i).take t'.len := by
            simp only [Span.elems, h8]
            cases hp : s'.ptr with
            | null => simp [Ptr.plus]
            | «at» b o =>
              simp only [Ptr.plus, List.drop_take, List.take_take, List.drop_drop]
              congr 1; omega
          rw [e1, e2, he, h5]

mutual
theorem alike_spans : ∀ v w : Val, Alike T v w → List.Forall₂ T v.spans w.spans
  | .unit, w, h => by simp only [Alike] at h; subst h; exact .nil
  | .span s, w, h => by
    simp only [Alike] at h; obtain ⟨s', rfl, h⟩ := h; exact .cons h .nil
  | .vec vs, w, h | .arr vs, w, h | .tup vs, w, h | .user _ _ vs, w, h => by
    simp only [Alike] at h; obtain ⟨ws, rfl, h⟩ := h; simp only [Val.spans]; exact alikes_spans _ _ h
  | .opt none, w, h => by simp only [Alike] at h; subst h; exact .nil
  | .opt (some v), w, h => by
    simp only [Alike] at h; obtain ⟨s', rfl, h⟩ := h; simp only [Val.spans]; exact alike_spans _ _ h
  | .var _ v, w, h => by
    simp only [Alike] at h; obtain ⟨s', rfl, h⟩ := h; simp only [Val.spans]; exact alike_spans _ _ h
  | .pair a b, w, h => by
    simp only [Alike] at h; obtain ⟨a', b', rfl, h, h'⟩ := h
    simp only [Val.spans]; exact List.rel_append (alike_spans _ _ h) (alike_spans _ _ h')
theorem alikes_spans : ∀ vs ws : List Val, Alikes T vs ws → List.Forall₂ T (spansList vs) (spansList ws)
  | [], ws, h => by simp only [Alikes] at h; subst h; exact .nil
  | v :: vs, ws, h => by
    simp only [Alikes] at h; obtain ⟨w, ws', rfl, h, h'⟩ := h
    simp only [spansList]; exact List.rel_append (alike_spans _ _ h) (alikes_spans _ _ h')
end

/-- the memory of `Ex.ctx "(aab"`, and one in which the same text lies elsewhere, with other text
around it -/
def Ex.elsewhere : Ctx Nat Nat :=
  { Ex.ctx "(aab" with mem := fun b => if b = 5 then Ex.str "zz(aaba" else [], toolchain := .msvc }

/-- Callback 0, which wraps its arguments, does not care where they point. -/
theorem Ex.independent (p : Parser Nat) (h : everyNode
      (fun q => match q with | .map _ (.user 0) => true | .map _ _ | .filter _ _ => false | _ => true) p = true) :
    PositionIndependent (Shifted (Ex.input "(aab") ⟨.at 5 2, 4⟩) (Ex.ctx "(aab") Ex.elsewhere p := by
  have hr : ∀ q, ParseReach (Ex.ctx "(aab") p q → (match q with | .map _ (.user 0) => true | .map _ _ | .filter _ _ => false | _ => true) = true :=
    fun q hq => reach_ok (fun k => by match k with | 0 => rfl | _ + 1 => rfl) h hq
  refine ⟨?_, ?_, ?_, ?_, ?_, ?_⟩
  · intro k
    show Alike _ _ _
    simp [Alike, Alikes]
  · intro a b
    by_cases h : a = .tup [.span, .opt (.user 2), .span] ∧ b = .user 2
    · have h1 : (Ex.ctx "(aab").conv a b = some fun v => .user 2 0 [v] := if_pos h
      have h2 : Ex.elsewhere.conv a b = some fun v => .user 2 0 [v] := if_pos h
      rw [h1, h2]
      intro v w hv
      simp only [Alike, Alikes]
      exact ⟨_, rfl, _, _, rfl, hv, rfl⟩
    · have h1 : (Ex.ctx "(aab").conv a b = Option.none := if_neg h
      have h2 : Ex.elsewhere.conv a b = Option.none := if_neg h
      rw [h1, h2]
      trivial
  · intro a b
    by_cases h : a = .user 0 ∧ b = .user 1
    · have h1 : (Ex.ctx "(aab").convOpt a b = some fun _ => .user 1 0 [] := if_pos h
      have h2 : Ex.elsewhere.convOpt a b = some fun _ => .user 1 0 [] := if_pos h
      rw [h1, h2]
      intro v w hv
      simp [Alike, Alikes]
    · have h1 : (Ex.ctx "(aab").convOpt a b = Option.none := if_neg h
      have h2 : Ex.elsewhere.convOpt a b = Option.none := if_neg h
      rw [h1, h2]
      trivial
  · intro k
    by_cases h : k = 3
    · have h1 : (Ex.ctx "(aab").userSpan k = some fun v => v.spans.headD Span.default := if_pos h
      have h2 : Ex.elsewhere.userSpan k = some fun v => v.spans.headD Span.default := if_pos h
      rw [h1, h2]
      intro v w hv
      have := alike_spans v w hv
      show Shifted _ _ (v.spans.headD Span.default) (w.spans.headD Span.default)
      cases hv1 : v.spans <;> cases hw1 : w.spans <;> rw [hv1, hw1] at this <;> cases this
      · exact .inl ⟨rfl, rfl⟩
      · assumption
    · have h1 : (Ex.ctx "(aab").userSpan k = Option.none := if_neg h
      have h2 : Ex.elsewhere.userSpan k = Option.none := if_neg h
      rw [h1, h2]
      trivial
  · intro q f hf args args' ha
    have := hr _ hf
    match f with
    | .user 0 =>
      refine ⟨.cons ⟨rfl, ha⟩ .nil, ?_⟩
      simp only [Alike]
      exact ⟨_, rfl, ha⟩
    | .user (_ + 1) | .const _ | .construct _ | .deflt _ | .apply _ => cases this
  · intro q f hf
    cases hr _ hf

/-- So wherever the text lies the same is found: here a `(` and some `a`s, joined and wrapped. -/
example : ∃ log' v' t', Parses Ex.elsewhere
      (.map (.join (.sequence [Ex.all "(", .zeroOrMore (Ex.all "a")])) (.user 0)) ⟨.at 5 2, 4⟩ log' v' t' ∧
    t'.len = 1 ∧ Alike (Shifted (Ex.input "(aab") ⟨.at 5 2, 4⟩) (.user 0 0 [.span ⟨.at 0 0, 3⟩]) v' := by
  obtain ⟨log', v', t', h1, h2, -, h3⟩ := C42_consumed
    (.map (.join (.sequence [Ex.all "(", .zeroOrMore (Ex.all "a")])) (.user 0)) (Ex.input "(aab") ⟨.at 5 2, 4⟩
    (C := Ex.ctx "(aab") (C' := Ex.elsewhere) ⟨rfl, rfl, rfl, rfl, rfl⟩ (Ex.input_valid _) (by show 2 + 4 ≤ 7; omega) rfl
    (Ex.independent _ rfl)
    (show Parses _ _ _ [⟨.user 0, [.span ⟨.at 0 0, 3⟩]⟩] (.user 0 0 [.span ⟨.at 0 0, 3⟩]) ⟨.at 0 3, 1⟩ from Ex.parses _ 9 rfl)
  exact ⟨log', v', t', h1, h2, h3⟩

/-! ## C50 join does not depend on the compiler -/

mutual
theorem alike_self : ∀ v : Val, (∀ t ∈ v.spans, T t t) → Alike T v v
  | .unit, _ => by simp [Alike]
  | .span s, h => by simpa [Alike, Val.spans] using h
  | .vec vs, h | .arr vs, h | .tup vs, h | .user _ _ vs, h => by
    simp only [Alike]; exact ⟨_, rfl, alikes_self vs (by simpa [Val.spans] using h)⟩
  | .opt none, _ => by simp [Alike]
  | .opt (some v), h => by simp only [Alike]; exact ⟨_, rfl, alike_self v (by simpa [Val.spans] using h)⟩
  | .var _ v, h => by simp only [Alike]; exact ⟨_, rfl, alike_self v (by simpa [Val.spans] using h)⟩
  | .pair a b, h => by
    simp only [Val.spans, List.mem_append] at h
    simp only [Alike]
    exact ⟨_, _, rfl, alike_self a fun t ht => h t (.inl ht), alike_self b fun t ht => h t (.inr ht)⟩
theorem alikes_self : ∀ vs : List Val, (∀ t ∈ spansList vs, T t t) → Alikes T vs vs
  | [], _ => .nil
  | v :: vs, h => by
    simp only [spansList, List.mem_append] at h
    exact .cons (alike_self v fun t ht => h t (.inl ht)) (alikes_self vs fun t ht => h t (.inr ht))
end


theorem Shifted.eq {s t t' : Span} (h : Shifted s s t t') : t = t' := by
  obtain ⟨p, n⟩ := t
  obtain ⟨p', n'⟩ := t'
  rcases h with ⟨h1, h2⟩ | ⟨h1, i, -, h2, h3⟩
  · rw [h1, h2]
  · simp only at h1 h2 h3; subst h1 h2 h3; rfl

/-- spans of alike values correspond to themselves -/
theorem alike_shifted {s : Span} {v w : Val} (h : Alike (Shifted s s) v w) :
    v = w ∧ ∀ t ∈ v.spans, Shifted s s t t := by
  have he := alike_eq (fun _ _ => Shifted.eq) _ _ h
  subst he
  have := alike_spans _ _ h
  exact ⟨rfl, fun t ht => List.forall₂_same.mp this t ht⟩

theorem alikes_shifted {s : Span} {vs ws : List Val} (h : Alikes (Shifted s s) vs ws) :
    vs = ws ∧ ∀ v ∈ vs, ∀ t ∈ v.spans, Shifted s s t t := by
  have he := alikes_eq (fun _ _ => Shifted.eq) _ _ h
  subst he
  refine ⟨rfl, ?_⟩
  induction vs with
  | nil => nofun
  | cons v vs ih =>
    simp only [Alikes] at h
    obtain ⟨w, ws, he, h1, h2⟩ := h
    cases he
    intro v' hv'
    rcases List.mem_cons.mp hv' with rfl | hv'
    · exact (alike_shifted h1).2
    · exact ih h2 v' hv'

theorem invoke_toolchain (C : Ctx α β) (tc : Toolchain) (r : Bool) (e : Ptr → Ptr → Bool) (f : Fn) (args : List Val) :
    invoke { C with toolchain := tc, relaxedTtp := r, ptrEq := e } f args = invoke C f args := by
  have hd : ∀ t, defaultVal { C with toolchain := tc, relaxedTtp := r, ptrEq := e } t = defaultVal C t := by
    intro t
    apply Ty.rec (motive_1 := fun t => defaultVal { C with toolchain := tc, relaxedTtp := r, ptrEq := e } t = defaultVal C t)
      (motive_2 := fun ts => defaultVals { C with toolchain := tc, relaxedTtp := r, ptrEq := e } ts = defaultVals C ts ∧
        defaultHead { C with toolchain := tc, relaxedTtp := r, ptrEq := e } ts = defaultHead C ts)
    all_goals (intros; simp_all [defaultVal, defaultVals, defaultHead])
  induction f generalizing args with
  | user k => rfl
  | apply f ih =>
    simp only [invoke]
    split
    · split
      · exact ih _
      · rfl
    · rfl
  | const k => rfl
  | construct t => rfl
  | deflt t => simp only [invoke, hd]

theorem AlikeRun.self {Q : A → A → Prop} {m : Run A} (hm : m ≠ .diverge)
    (hl : ∀ l r, m = .done l r → AlikeLog T l l) (h : ∀ l a, m = .done l (.ok a) → Q a a) : AlikeRun T Q m m := by
  cases hc : m with
  | diverge => exact absurd hc hm
  | done l r =>
    cases r with
    | ok a => exact ⟨hl l _ hc, h l a hc⟩
    | err e => exact ⟨hl l _ hc, rfl⟩

/-- the calls an invocation logs are alike if its arguments are -/
theorem invoke_log (hT : T Span.default Span.default) (f : Fn) (args : List Val) (ha : Alikes T args args) {l r}
    (h : invoke C f args = .done l r) : AlikeLog T l l := by
  induction f generalizing args with
  | user k =>
    simp only [invoke, M.bind_eq, M.log, M.ok_bind, liftCall] at h
    cases hc : C.fnCall k args <;> rw [hc] at h <;> simp only [M.fail, M.pure, M.after_done, List.append_nil] at h <;>
      cases h <;> exact .cons ⟨rfl, ha⟩ .nil
  | apply f ih =>
    simp only [invoke] at h
    split at h
    · rename_i v
      split at h
      · rename_i vs hvs
        refine ih vs ?_ h
        simp only [Alikes] at ha
        obtain ⟨w, ws, he, hv, -⟩ := ha
        cases he
        cases v with
        | tup ws => cases hvs; simp only [Alike] at hv; obtain ⟨_, he, hv⟩ := hv; cases he; exact hv
        | arr ws => cases hvs; simp only [Alike] at hv; obtain ⟨_, he, hv⟩ := hv; cases he; exact hv
        | pair a b =>
          cases hvs; simp only [Alike] at hv; obtain ⟨_, _, he, hv, hv'⟩ := hv; cases he
          exact .cons hv (.one hv')
        | _ => cases hvs
      · cases h; exact .nil
    · cases h; exact .nil
  | const k =>
    simp only [invoke, M.bind_eq, M.log, M.ok_bind, M.pure, M.after_done, List.append_nil] at h
    cases h; exact .cons ⟨rfl, ha⟩ .nil
  | construct t =>
    simp only [invoke, M.bind_eq, M.log, M.ok_bind, liftCall] at h
    cases hc : C.ctor t args <;> rw [hc] at h <;> simp only [M.fail, M.pure, M.after_done, List.append_nil] at h <;>
      cases h <;> exact .cons ⟨rfl, ha⟩ .nil
  | deflt t =>
    simp only [invoke, M.bind_eq, M.log, M.ok_bind, M.ofOption] at h
    cases hc : defaultVal C t <;> rw [hc] at h <;> simp only [M.fail, M.pure, M.after_done, List.append_nil] at h <;>
      cases h <;> exact .cons ⟨rfl, ha⟩ .nil

/-- Whichever branch of the adjacency test the compiler selects (MSVC, GCC/Clang at run time or at
compile time), whatever it answers when comparing pointers into different arrays, and whichever
specialisations it considers: `parse` and `lookahead` give the same outcome, for every readable input
and every parser whose mapped functions (if any) invent no spans. -/
theorem C50_any_compiler (tc : Toolchain) (r : Bool) (e : Ptr → Ptr → Bool) (p : Parser α) (s : Span)
    (hs : s.Valid C.mem) (hl : SpanLocal C p) :
    Parse { C with toolchain := tc, relaxedTtp := r, ptrEq := e } p s = Parse C p s ∧
    Look { C with toolchain := tc, relaxedTtp := r, ptrEq := e } p s = Look C p s := by
  have hnull : Shifted s s Span.default Span.default := .inl ⟨rfl, rfl⟩
  have hi : PositionIndependent (Shifted s s) C { C with toolchain := tc, relaxedTtp := r, ptrEq := e } p := {
    dflt := fun k => by
      show OptRel _ (C.userDefault k) (C.userDefault k)
      cases h : C.userDefault k with
      | none => trivial
      | some v => exact alike_self v fun t ht => hl.ctx.dflt k v h t ht ▸ hnull
    conv := fun a b => by
      show OptRel _ (C.conv a b) (C.conv a b)
      cases h : C.conv a b with
      | none => trivial
      | some f =>
        intro v w hv
        obtain ⟨rfl, hw⟩ := alike_shifted hv
        refine alike_self _ fun t ht => ?_
        rcases hl.ctx.conv a b f v h t ht with rfl | ht
        · exact hnull
        · exact hw t ht
    convOpt := fun a b => by
      show OptRel _ (C.convOpt a b) (C.convOpt a b)
      cases h : C.convOpt a b with
      | none => trivial
      | some f =>
        intro v w hv
        have hvw : v = w ∧ ∀ t ∈ (Val.opt v).spans, Shifted s s t t := by
          cases v <;> cases w
          · exact ⟨rfl, by simp [Val.spans]⟩
          · exact hv.elim
          · exact hv.elim
          · obtain ⟨rfl, hw⟩ := alike_shifted hv
            exact ⟨rfl, by simpa [Val.spans] using hw⟩
        obtain ⟨rfl, hw⟩ := hvw
        refine alike_self _ fun t ht => ?_
        rcases hl.ctx.convOpt a b f v h t ht with rfl | ht
        · exact hnull
        · exact hw t ht
    toSpan := fun k => by
      show OptRel _ (C.userSpan k) (C.userSpan k)
      cases h : C.userSpan k with
      | none => trivial
      | some f =>
        intro v w hv
        obtain ⟨rfl, hw⟩ := alike_shifted hv
        rcases hl.ctx.toSpan k f v h with ht | ht
        · rw [ht]; exact hnull
        · exact hw _ ht
    map := fun q f hr args args' ha => by
      rw [invoke_toolchain C tc r e f args']
      obtain ⟨rfl, hv⟩ := alikes_shifted ha
      refine AlikeRun.self (T := Shifted s s) (invoke_ends f args) (fun l r h => invoke_log hnull f args ha h) ?_
      intro l v h
      refine alike_self v fun t ht => ?_
      rcases hl.maps q f hr args l v h t ht with rfl | ⟨a, h1, h2⟩
      · exact hnull
      · exact hv a h1 t h2
    filter := fun q f hr args args' ha => by
      rw [invoke_toolchain C tc r e f args']
      obtain ⟨rfl, hv⟩ := alikes_shifted ha
      exact AlikeRun.self (T := Shifted s s) (invoke_ends f args) (fun l r h => invoke_log hnull f args ha h)
        fun l v _ => rfl }
  have hP : SameProgram C { C with toolchain := tc, relaxedTtp := r, ptrEq := e } := ⟨rfl, rfl, rfl, rfl, rfl⟩
  have := C42_relocation p s s hP hs hs rfl hi
  have hR : ∀ a b : R, AlikeR (Shifted s s) a b → a = b := by
    rintro ⟨v, x⟩ ⟨v', x'⟩ ⟨h1, h2⟩
    cases v <;> cases v'
    · rw [show x = x' from h2.eq]
    · exact h1.elim
    · exact h1.elim
    · rw [show x = x' from h2.eq, (alike_shifted h1).1]
  exact ⟨(this.1.eq hR fun _ _ => Shifted.eq).symm, (this.2.eq hR fun _ _ => Shifted.eq).symm⟩

/-- A callback-free parser in particular. -/
theorem C50_callback_free (tc : Toolchain) (r : Bool) (e : Ptr → Ptr → Bool) (p : Parser α) (s : Span)
    (hs : s.Valid C.mem) (hC : C.Local) (hm : ∀ q f, ¬ ParseReach C p (.map q f)) :
    Parse { C with toolchain := tc, relaxedTtp := r, ptrEq := e } p s = Parse C p s ∧
    Look { C with toolchain := tc, relaxedTtp := r, ptrEq := e } p s = Look C p s :=
  C50_any_compiler tc r e p s hs ⟨hC, fun q f h => absurd h (hm q f)⟩

/-- a parser in which adjacency is tested: three compilers agree; with a mapped function that
returns a span of another array they do not -/
example : ∃ v s', ∀ tc : Toolchain,
    Parses { Ex.ctx "aab" with toolchain := tc } (.join (.sequence [Ex.all "a", .zeroOrMore (Ex.all "a")]))
      (Ex.input "aab") [] v s' :=
  ⟨.span ⟨.at 0 0, 2⟩, ⟨.at 0 2, 1⟩, fun tc => by cases tc <;> exact Ex.parses _ 9 rfl⟩

example : SpanLocal (Ex.ctx "aab") (.join (.sequence [Ex.all "a", .zeroOrMore (Ex.all "a")])) := by
  refine ⟨Ex.ctx_local _, fun q f h => ?_⟩
  have := reach_ok (ok := fun p => match p with | .map _ _ => false | _ => true)
    (fun k => by match k with | 0 => rfl | _ + 1 => rfl) (by rfl) h
  exact Bool.noConfusion this

end Tok3n
