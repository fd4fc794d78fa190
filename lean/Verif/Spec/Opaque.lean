import Verif.Spec.Alike
/-
The user's types are parameters of a grammar: runs that differ only in the values of user types.
-/

namespace Tok3n

variable {α β A B : Type}

mutual
/-- The same value, except that spans at the same place are related by `T` and values of a user
type at the same place are related by `U`, which decides alone: user values are not looked into. -/
def Like (T : Span → Span → Prop) (U : Val → Val → Prop) : Val → Val → Prop
  | .unit, w => w = .unit
  | .span s, w => ∃ s', w = .span s' ∧ T s s'
  | .vec vs, w => ∃ ws, w = .vec ws ∧ Likes T U vs ws
  | .arr vs, w => ∃ ws, w = .arr ws ∧ Likes T U vs ws
  | .opt none, w => w = .opt none
  | .opt (some v), w => ∃ v', w = .opt (some v') ∧ Like T U v v'
  | .tup vs, w => ∃ ws, w = .tup ws ∧ Likes T U vs ws
  | .var i v, w => ∃ v', w = .var i v' ∧ Like T U v v'
  | .pair a b, w => ∃ a' b', w = .pair a' b' ∧ Like T U a a' ∧ Like T U b b'
  | .user k t vs, w => ∃ t' ws, w = .user k t' ws ∧ U (.user k t vs) (.user k t' ws)
/-- componentwise -/
def Likes (T : Span → Span → Prop) (U : Val → Val → Prop) : List Val → List Val → Prop
  | [], ws => ws = []
  | v :: vs, ws => ∃ w ws', ws = w :: ws' ∧ Like T U v w ∧ Likes T U vs ws'
end

/-- The same callback with related arguments. -/
def LikeCall (T : Span → Span → Prop) (U : Val → Val → Prop) (c c' : Call) : Prop :=
  c.fn = c'.fn ∧ Likes T U c.args c'.args

/-- The same calls in the same order. -/
def LikeLog (T : Span → Span → Prop) (U : Val → Val → Prop) (l l' : List Call) : Prop :=
  List.Forall₂ (LikeCall T U) l l'

/-- Both succeeded with related values or both failed; the remaining inputs correspond. -/
structure LikeR (T : Span → Span → Prop) (U : Val → Val → Prop) (r r' : R) : Prop where
  val : match r.val, r'.val with
    | some v, some w => Like T U v w
    | none, none => True
    | _, _ => False
  rem : T r.rem r'.rem

/-- Neither returns, or both do, after the same calls, either by throwing the same exception
(or committing the same error) or with results related by `Q`. -/
def LikeRun (T : Span → Span → Prop) (U : Val → Val → Prop) (Q : A → B → Prop) (m : Run A) (m' : Run B) : Prop :=
  match m, m' with
  | .diverge, .diverge => True
  | .done l (.ok a), .done l' (.ok b) => LikeLog T U l l' ∧ Q a b
  | .done l (.err e), .done l' (.err e') => LikeLog T U l l' ∧ e = e'
  | _, _ => False

/-- Two calls of user code: both throw the same or both return related things. -/
def ExceptRel (Q : A → B → Prop) : Except Nat A → Except Nat B → Prop
  | .ok a, .ok b => Q a b
  | .error e, .error e' => e = e'
  | _, _ => False

/-- Two programs that differ only in the user's classes and callbacks, run on the same memory. -/
structure SameGrammar (C C' : Ctx α β) : Prop where
  eqv : C.eqv = C'.eqv
  mem : C.mem = C'.mem
  toolchain : C.toolchain = C'.toolchain
  ptrEq : C.ptrEq = C'.ptrEq
  fnRet : C.fnRet = C'.fnRet
  constTy : C.constTy = C'.constTy
  ctorOk : C.ctorOk = C'.ctorOk
  custom : C.custom = C'.custom

/-- The user's code in the two programs corresponds: given values that are the same except for
user values related by `U`, it returns such values (or throws the same). -/
structure Represents (U : Val → Val → Prop) (C C' : Ctx α β) : Prop where
  fn : ∀ k args args', Likes Eq U args args' →
    ExceptRel (Like Eq U) (C.fnCall k args) (C'.fnCall k args')
  const : ∀ k, Like Eq U (C.constVal k) (C'.constVal k)
  ctor : ∀ t args args', Likes Eq U args args' →
    ExceptRel (Like Eq U) (C.ctor t args) (C'.ctor t args')
  dflt : ∀ k, OptRel (Like Eq U) (C.userDefault k) (C'.userDefault k)
  conv : ∀ a b, OptRel (fun f g => ∀ v w, Like Eq U v w → Like Eq U (f v) (g w)) (C.conv a b) (C'.conv a b)
  convOpt : ∀ a b, OptRel (fun f g => ∀ v w, OptRel (Like Eq U) v w → Like Eq U (f v) (g w))
    (C.convOpt a b) (C'.convOpt a b)
  toSpan : ∀ k, OptRel (fun f g => ∀ v w, Like Eq U v w → f v = g w) (C.userSpan k) (C'.userSpan k)
  truthy : ∀ v w, Like Eq U v w → C.truthy v = C'.truthy w

/-! ### Invariants -/

mutual
/-- Every user value in the value satisfies `I`; user values are not looked into. -/
def Val.Every (I : Val → Prop) : Val → Prop
  | .unit | .span _ | .opt none => True
  | .vec vs | .arr vs | .tup vs => EveryAll I vs
  | .opt (some v) | .var _ v => v.Every I
  | .pair a b => a.Every I ∧ b.Every I
  | .user k t vs => I (.user k t vs)
/-- all of them -/
def EveryAll (I : Val → Prop) : List Val → Prop
  | [] => True
  | v :: vs => v.Every I ∧ EveryAll I vs
end

/-- The user's code makes only user values that satisfy `I`, if it is given only such. -/
structure Establishes (I : Val → Prop) (C : Ctx α β) : Prop where
  fn : ∀ k args v, EveryAll I args → C.fnCall k args = .ok v → v.Every I
  const : ∀ k, (C.constVal k).Every I
  ctor : ∀ t args v, EveryAll I args → C.ctor t args = .ok v → v.Every I
  dflt : ∀ k v, C.userDefault k = some v → v.Every I
  conv : ∀ a b f v, C.conv a b = some f → v.Every I → (f v).Every I
  convOpt : ∀ a b f v, C.convOpt a b = some f → (Val.opt v).Every I → (f v).Every I

/-! ### Evaluating -/

mutual
/-- the value with every user value replaced; user values are not looked into -/
def Val.onUsers (h : Val → Val) : Val → Val
  | .unit => .unit
  | .span s => .span s
  | .vec vs => .vec (onUsersAll h vs)
  | .arr vs => .arr (onUsersAll h vs)
  | .opt none => .opt none
  | .opt (some v) => .opt (some (v.onUsers h))
  | .tup vs => .tup (onUsersAll h vs)
  | .var i v => .var i (v.onUsers h)
  | .pair a b => .pair (a.onUsers h) (b.onUsers h)
  | .user k t vs => h (.user k t vs)
/-- of each -/
def onUsersAll (h : Val → Val) : List Val → List Val
  | [] => []
  | v :: vs => v.onUsers h :: onUsersAll h vs
end

/-- the call with the arguments replaced -/
def Call.onUsers (h : Val → Val) (c : Call) : Call := ⟨c.fn, onUsersAll h c.args⟩

/-- `h` replaces each user value by one of the same type. -/
def KeepsType (h : Val → Val) : Prop := ∀ k t vs, ∃ t' ws, h (.user k t vs) = .user k t' ws

/-- What the user's code in `C'` does with replaced values is what it does in `C`, replaced. -/
structure Evaluates (h : Val → Val) (C C' : Ctx α β) : Prop where
  fn : ∀ k args, C'.fnCall k (onUsersAll h args) = (C.fnCall k args).map (Val.onUsers h)
  const : ∀ k, C'.constVal k = (C.constVal k).onUsers h
  ctor : ∀ t args, C'.ctor t (onUsersAll h args) = (C.ctor t args).map (Val.onUsers h)
  dflt : ∀ k, C'.userDefault k = (C.userDefault k).map (Val.onUsers h)
  conv : ∀ a b, OptRel (fun f g => ∀ v, g (v.onUsers h) = (f v).onUsers h) (C.conv a b) (C'.conv a b)
  convOpt : ∀ a b, OptRel (fun f g => ∀ v : Option Val, g (v.map (Val.onUsers h)) = (f v).onUsers h)
    (C.convOpt a b) (C'.convOpt a b)
  toSpan : ∀ k, OptRel (fun f g => ∀ v : Val, g (v.onUsers h) = f v) (C.userSpan k) (C'.userSpan k)
  truthy : ∀ v : Val, C'.truthy (v.onUsers h) = C.truthy v

end Tok3n
