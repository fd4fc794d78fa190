import Verif.Props.CallCount
import Verif.Props.EffortRecursive
import Verif.Props.ExamplesLook
import Verif.Props.Algebraic
import Verif.Proof.AlgebraicAccepted
import Verif.Proof.JsonCalls
/-
C65: how many calls the examples make.
-/

namespace Tok3n

namespace Algebraic

/-- On `(-1-(-1-(-1-` and so on, the algebraic example takes exponentially many calls to fail. -/
theorem C65_exponential_input (m : Machine) (k : Nat) (s : Span) (hs : s.Valid m.mem) (hx : s.elems m.mem = unclosed k) :
    s.len = 4 * k ∧ (∃ log, ParseFails (ctx m) input s log s) ∧ ∃ n, ParseCalls (ctx m) input s n ∧ 2 ^ k ≤ n := by
  obtain ⟨n, hn, h⟩ := unclosed_input (m := m) k
  have hp : input ∈ [number, powterm, factor, term, expr, input] := by simp
  obtain ⟨hno, -⟩ := C30_lookahead_tells m input hp
  have hf : ∃ log, ParseFails (ctx m) input s log s := by
    rcases C47_returns m input hp s hs with ⟨log, v, x, s', h1, -⟩ | h1
    · have h2 := (C45_parse (ctx m) input hno s hs (fun l e he => by
        unfold Parses at h1; unfold ParseErr at he; rw [h1] at he; simp at he) s').1.1 ⟨_, _, h1⟩
      obtain ⟨j, h2, -⟩ := h2
      have h3 : PegC (ctx m) input (s.elems m.mem) none := hx ▸ h.peg
      cases C45_deterministic _ _ _ _ _ _ h3 h2
    · exact h1
  refine ⟨by rw [← hs.elems_length, hx, unclosed_length], hf, ?_⟩
  obtain ⟨log, hf⟩ := hf
  obtain ⟨log', h1, h2⟩ := ((C65_counts (ctx m) input s log _).1).1 hf
  refine ⟨_, ⟨log', _, h1, rfl⟩, ?_⟩
  have h3 := (C65_parse_exact (ctx m) input hno s hs (n + 1)
    ((C65_lookahead_exact (ctx m) input s hs _).2 ⟨n, none, hx ▸ h, rfl⟩) log' _ h1).2 ⟨_, rfl⟩
  have h4 : marks log' ≤ log'.length := List.length_filter_le _ _
  omega

/-- It never takes more than exponentially many: one base does for all inputs on all machines. -/
theorem C65_at_most_exponential : ∃ c, ∀ (m : Machine) (s : Span), s.Valid m.mem →
    ∃ n ≤ c ^ (s.len + 1), ParseCalls (ctx m) input s n := by
  have hp : input ∈ [number, powterm, factor, term, expr, input] := by simp
  obtain ⟨c, hc⟩ := C65_recursive (ctx (holding [])) input (productive_sound (algebraic_productive hp)).finite
  refine ⟨c, fun m s hs => ?_⟩
  have hm := productive_sound (algebraic_productive (m := m) hp)
  obtain ⟨_, hc'⟩ := C65_productive (ctx m) input hm
  obtain ⟨⟨n, -, hn⟩, -⟩ := hc' s hs
  exact ⟨n, hc (ctx m) rfl s n hs (.inl hn), hn⟩

/-- On an input it accepts it takes at most quadratically many. -/
theorem C65_accepted (m : Machine) (s : Span) (hs : s.Valid m.mem) (log : List Call) (v : Val) (s' : Span)
    (h : Parses (ctx m) input s log v s') : ∃ n, ParseCalls (ctx m) input s n ∧ n ≤ 400 * (s.len + 1) ^ 2 := by
  have hp : input ∈ [number, powterm, factor, term, expr, input] := by simp
  obtain ⟨-, e, he, hg, -⟩ := C55_sound m s hs log v s' h
  obtain ⟨n, h1, h2⟩ := input_calls (m := m) he hg
  have h3 := (C65_lookahead_exact (ctx m) input s hs _).2 ⟨n, _, h2, rfl⟩
  obtain ⟨log', h4, -⟩ := (C65_counts (ctx m) input s log _).1.1 h
  have h5 : ParseCalls (ctx m) input s log'.length := ⟨_, _, h4, rfl⟩
  have h6 := C65_parse_within (ctx m) input (C30_lookahead_tells m input hp).1 s hs _ h3 _ h5
  rw [hs.elems_length] at h1
  exact ⟨_, h5, by rw [Nat.pow_two]; omega⟩

/-- Quadratically many can be needed: `k` minus signs before a number and `k` spaces behind it take `k * k`. -/
theorem C65_accepted_needed (m : Machine) (k : Nat) (s : Span) (hs : s.Valid m.mem) (hx : s.elems m.mem = padded k) :
    s.len = 2 * k + 1 ∧ (∃ log v s', Parses (ctx m) input s log v s') ∧ ∃ n, ParseCalls (ctx m) input s n ∧ k * k ≤ n := by
  have hp : input ∈ [number, powterm, factor, term, expr, input] := by simp
  have hok := (C55_accepts m s hs).2 (hx ▸ padded_input k)
  refine ⟨by rw [← hs.elems_length, hx, padded_length], hok, ?_⟩
  obtain ⟨log, v, s', hok⟩ := hok
  obtain ⟨n, hn, h⟩ := padded_calls (m := m) k
  obtain ⟨log', h1, h2⟩ := ((C65_counts (ctx m) input s log _).1).1 hok
  refine ⟨_, ⟨log', _, h1, rfl⟩, ?_⟩
  have h3 := (C65_parse_exact (ctx m) input (C30_lookahead_tells m input hp).1 s hs (n + 1)
    ((C65_lookahead_exact (ctx m) input s hs _).2 ⟨n, _, hx ▸ h, rfl⟩) log' _ h1).2 ⟨_, rfl⟩
  have h4 : marks log' ≤ log'.length := List.length_filter_le _ _
  omega

/-- `-1+2` is accepted, so in at most ten thousand calls. -/
example : ∃ n, ParseCalls (ctx (holding [45, 49, 43, 50])) input (all [45, 49, 43, 50]) n ∧ n ≤ 400 * 5 ^ 2 := by
  obtain ⟨log, v, s', h, -⟩ := C56_minus
  exact C65_accepted _ _ (all_valid _) log v s' h

example : ∃ n, ParseCalls (ctx (holding (padded 30))) input (all (padded 30)) n ∧ 900 ≤ n :=
  (C65_accepted_needed (holding (padded 30)) 30 (all _) (all_valid _) (all_elems _)).2.2

/-- 40 characters, a thousand calls -/
example : ∃ n, ParseCalls (ctx (holding (unclosed 10))) input (all (unclosed 10)) n ∧ 1024 ≤ n :=
  (C65_exponential_input (holding (unclosed 10)) 10 (all _) (all_valid _) (all_elems _)).2.2

end Algebraic

namespace Json

/-- The JSON example ends after linearly many calls, on every input, whether it is JSON or not. -/
theorem C65_linear_json (m : Machine) (p : Parser Nat) (hp : p ∈ [jsonValue, jsonObject, jsonArray, string, number])
    (s : Span) (hs : s.Valid m.mem) :
    (∃ n, LookCalls (ctx m) p s n ∧ n ≤ 200 * (s.len + 1)) ∧ (∃ n, ParseCalls (ctx m) p s n ∧ n ≤ 400 * (s.len + 1)) := by
  obtain ⟨o, n', h1, h2⟩ := am_parser (m := m) hp (s.elems m.mem)
  rw [hs.elems_length] at h1
  have h3 : LookCalls (ctx m) p s (n' + 1) := (C65_lookahead_exact (ctx m) p s hs _).2 ⟨n', o, h2, rfl⟩
  refine ⟨⟨_, h3, h1⟩, ?_⟩
  have h4 : ∃ log r, Parse (ctx m) p s = .done log r := by
    rcases C46_returns m p hp s hs with ⟨log, v, x, s', h, -⟩ | ⟨log, h⟩
    · exact ⟨_, _, h⟩
    · exact ⟨_, _, h⟩
  obtain ⟨log, r, h4⟩ := h4
  obtain ⟨log', h5, -⟩ := (C65_counts (ctx m) p s log r).1.1 h4
  have h6 : ParseCalls (ctx m) p s log'.length := ⟨_, _, h5, rfl⟩
  have := C65_parse_within (ctx m) p (C30_lookahead_tells m p hp).1 s hs _ h3 _ h6
  exact ⟨_, h6, by omega⟩

/-- Twelve brackets that are never closed: no more than 5200 calls. -/
example : ∃ n, ParseCalls (ctx (machine "[[[[[[[[[[[[")) jsonValue (input "[[[[[[[[[[[[") n ∧ n ≤ 5200 :=
  (C65_linear_json (machine "[[[[[[[[[[[[") jsonValue (by simp) (input "[[[[[[[[[[[[") (input_valid _)).2

end Json

end Tok3n
