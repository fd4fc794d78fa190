import Verif.Model.JsonMain
import Verif.Props.Json
/-
C89: the program of the JSON example.
-/

namespace Tok3n.Json

/-- The program ends and writes nothing if the document begins with an object of the JSON grammar, and an error message if
it does not. -/
theorem C89_json (m : Machine) (t s : Span) (ht : t.Valid m.mem) (hs : s.Valid m.mem) :
    ((∃ x y ms, s.elems m.mem = x ++ y ∧ Value x (.obj ms)) → program m t s = some []) ∧
    ((¬ ∃ x y ms, s.elems m.mem = x ++ y ∧ Value x (.obj ms)) → program m t s = some (lit "Json parse error!!!\n")) := by
  have e : ∃ log r, Parse (ctx m) string t = .done log (.ok r) := by
    rcases C46_returns m string (by simp) t ht with ⟨log, v, x, s', h, -⟩ | ⟨log, h⟩
    · exact ⟨log, _, h⟩
    · exact ⟨log, _, h⟩
  obtain ⟨l, r, e⟩ := e
  constructor
  · rintro ⟨x, y, ms, hx, hv⟩
    obtain ⟨log, vs, h, -⟩ := (C54_object m s hs).2 x ms _ hv (Reads.of_text hs hx)
    have h : Parse (ctx m) jsonObject s = _ := h
    rw [program, e, h]
  · intro hn
    rcases C46_returns m jsonObject (by simp) s hs with ⟨log, v, x, s', h, -⟩ | ⟨log, h⟩
    · obtain ⟨x, ms, vs, r, hv, -⟩ := (C54_object m s hs).1 log v s' h
      exact absurd ⟨x, _, ms, r.text, hv⟩ hn
    · have h : Parse (ctx m) jsonObject s = _ := h
      rw [program, e, h]

/-! ### The document of the program -/

/-- json.cpp:110-126 -/
def mainDocument : List Nat :=
  lit "{\n" ++
  lit "\t\"id\": \"0001\",\n" ++
  lit "\t\"type\": \"donut\",\n" ++
  lit "\t\"name\": \"Cake\",\n" ++
  lit "\t\"image\":\n" ++
  lit "\t\t{\n" ++
  lit "\t\t\t\"url\": \"images/0001.jpg\",\n" ++
  lit "\t\t\t\"width\": 200,\n" ++
  lit "\t\t\t\"height\": 200\n" ++
  lit "\t\t},\n" ++
  lit "\t\"thumbnail\":\n" ++
  lit "\t\t{\n" ++
  lit "\t\t\t\"url\": \"images/thumbnails/0001.jpg\",\n" ++
  lit "\t\t\t\"width\": 32,\n" ++
  lit "\t\t\t\"height\": 32\n" ++
  lit "\t\t}\n" ++
  lit "}"

/-- a run that matches -/
def isMatch : M Call R → Bool
  | .done _ (.ok ⟨some _, _⟩) => true
  | _ => false

theorem parses_of_isMatch {C : Ctx Nat Nat} {p : Parser Nat} {s : Span} (n : Nat) (h : isMatch ((sem C n p).parse s) = true) :
    ∃ log v s', Parses C p s log v s' := by
  generalize hr : (sem C n p).parse s = r at h
  match r, hr, h with
  | .done log (.ok ⟨some v, s'⟩), hr, _ => exact ⟨log, v, s', Parse_eq_done.2 ⟨n, hr⟩⟩

/-- a machine with this text in memory -/
def holding (x : List Nat) : Machine := ⟨fun _ => x, .gnuRuntime, true, fun _ _ => false⟩
/-- all of the text -/
def all (x : List Nat) : Span := ⟨.at 0 0, x.length⟩
theorem all_valid (x : List Nat) : (all x).Valid (holding x).mem := by
  show 0 + x.length ≤ x.length; omega
theorem all_elems (x : List Nat) : (all x).elems (holding x).mem = x := by simp [all, holding, Span.elems]

theorem object_of_isMatch {x : List Nat} (n : Nat) (h : isMatch ((sem (ctx (holding x)) n jsonObject).parse (all x)) = true) :
    ∃ y z ms, x = y ++ z ∧ Value y (.obj ms) := by
  obtain ⟨log, v, s', h⟩ := parses_of_isMatch n h
  obtain ⟨y, ms, vs, r, hv, -⟩ := (C54_object (holding x) _ (all_valid x)).1 log v s' h
  have e := r.text
  rw [all_elems] at e
  exact ⟨y, _, ms, e, hv⟩

theorem main_object : ∃ x y ms, mainDocument = x ++ y ∧ Value x (.obj ms) :=
  object_of_isMatch 300 (by decide +kernel)

/-- The program as it stands writes nothing, whatever the machine. -/
theorem C89_json_program (m : Machine) (t s : Span) (ht : t.Valid m.mem) (hs : s.Valid m.mem)
    (hx : s.elems m.mem = mainDocument) : program m t s = some [] :=
  (C89_json m t s ht hs).1 (by rw [hx]; exact main_object)

/-! ### Cases -/

example : program (holding mainDocument) (all mainDocument) (all mainDocument) = some [] :=
  C89_json_program _ _ _ (all_valid _) (all_valid _) (all_elems _)

/-- `[]` is no object. -/
example : program (holding (lit "[]")) (all (lit "[]")) (all (lit "[]")) = some (lit "Json parse error!!!\n") := by
  refine (C89_json _ _ _ (all_valid _) (all_valid _)).2 ?_
  rintro ⟨x, y, ms, hx, hv⟩
  rw [all_elems] at hx
  cases hv <;> simp [lit] at hx

end Tok3n.Json
