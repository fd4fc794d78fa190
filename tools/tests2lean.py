#!/usr/bin/env python3
"""Translate the assertions of the repository's own tests into Lean.

usage: tests2lean.py [REPO] [OUT]      (default /repo and /verif/lean/Verif/Tests/Gen)

Reads REPO/tests as text, and writes one Lean module per test file.  Every assertion
becomes a term of `Tok3n.Tests.Assertion`; the module proves all of them at once.
Assertions that can't be translated are listed in OUT/../UNTRANSLATED.txt, with the reason.
"""
import os, re, sys

REPO = sys.argv[1] if len(sys.argv) > 1 else '/repo'
OUT = sys.argv[2] if len(sys.argv) > 2 else '/verif/lean/Verif/Tests/Gen'

# ---------------------------------------------------------------- tokens
TOK = re.compile(r'''
   (?P<ws>\s+)
 | (?P<str>(?:L|u8|u|U)?"(?:[^"\\]|\\.)*"(?:_\w+)?)
 | (?P<chr>(?:L|u8|u|U)?'(?:[^'\\]|\\.)+'(?:_\w+)?)
 | (?P<num>\d[\w.]*)
 | (?P<id>(?:::)?[A-Za-z_]\w*(?:::[A-Za-z_~]\w*)*)
 | (?P<op>->|\.\.\.|&&|\|\||==|!=|<=|::|[-+*/%~!<>=|&^?:;,.(){}\[\]\#\\])
''', re.X)

class Tok:
    __slots__ = ('k', 't', 'pos', 'line')
    def __init__(s, k, t, pos, line): s.k, s.t, s.pos, s.line = k, t, pos, line
    def __repr__(s): return s.t

def tokenize(text, line0=1):
    out, i, line = [], 0, line0
    while i < len(text):
        m = TOK.match(text, i)
        if not m:
            raise SyntaxError(f'token at line {line}: {text[i:i+20]!r}')
        k = m.lastgroup
        if k != 'ws':
            out.append(Tok(k, m.group(), i, line))
        line += m.group().count('\n')
        i = m.end()
    return out

def strip_comments(text):
    text = re.sub(r'/\*.*?\*/', lambda m: re.sub(r'[^\n]', ' ', m.group()), text, flags=re.S)
    out = []
    for l in text.split('\n'):
        # a // outside a string
        m = re.match(r'((?:[^"/]|"(?:[^"\\]|\\.)*"|/(?!/))*)//.*$', l)
        out.append(m.group(1) if m else l)
    return '\n'.join(out)

def preprocess(text, defs):
    """conditionals and multi-line defines; returns (text, macros)"""
    text = strip_comments(text)
    lines = text.split('\n')
    out, macros, stack = [], {}, []
    i = 0
    while i < len(lines):
        l = lines[i]; n = 1
        if l.lstrip().startswith('#'):
            while l.rstrip().endswith('\\'):
                l = l.rstrip()[:-1] + ' ' + lines[i + n]; n += 1
            d = l.strip()[1:].strip()
            live = all(s[0] for s in stack)
            m = re.match(r'(if|elif)\s+defined\((\w+)\)\s*$', d)
            if m and m.group(1) == 'if':
                v = m.group(2) in defs; stack.append([v, v])
            elif m:
                v = m.group(2) in defs and not stack[-1][1]
                stack[-1] = [v, stack[-1][1] or v]
            elif d.startswith('ifdef') or d.startswith('if '):
                stack.append([False, False])
            elif d.startswith('else'):
                stack[-1] = [not stack[-1][1], True]
            elif d.startswith('endif'):
                stack.pop()
            elif live:
                m = re.match(r'define\s+(\w+)(?:\(([^)]*)\))?(.*)$', d, re.S)
                if m:
                    macros[m.group(1)] = ([a.strip() for a in m.group(2).split(',')] if m.group(2) is not None else None, m.group(3).strip())
            out += [''] * n
        else:
            out.append(l if all(s[0] for s in stack) else '')
        i += n
    return '\n'.join(out), macros

# ---------------------------------------------------------------- expressions
class Bad(Exception): pass

class Lam:                       # a lambda or class that stands for a callback, by its text
    def __init__(s, text): s.text = text
class Val:                       # kind: 'term' (Option Term, lean text), 'parser', 'mod', 'type', 'text', 'exp', 'num', 'fn', 'tmpl'
    def __init__(s, kind, lean, **kw):
        s.kind, s.lean = kind, lean
        s.__dict__.update(kw)
    def __repr__(s): return f'<{s.kind} {s.lean}>'

def unescape(s):
    return s.encode().decode('unicode_escape')

def codes(s):
    return '[' + ', '.join(str(ord(c)) for c in s) + ']'

FNS = {}                          # normalised callback text -> Lean term of type Nat
TYPES = {}                        # name -> Lean Ty
exec(open(os.path.join(os.path.dirname(os.path.abspath(__file__)), 'tests2lean_names.py')).read())

SAMPLES = None                    # the samples, while they are read

class Env:
    def __init__(s): s.scopes = [{}]
    def push(s): s.scopes.append({})
    def pop(s): s.scopes.pop()
    def set(s, n, v): s.scopes[-1][n] = v
    def get(s, n):
        for d in reversed(s.scopes):
            if n in d: return d[n]
        return None

class P:
    """expression parser and evaluator"""
    def __init__(s, toks, env): s.t, s.i, s.env = toks, 0, env
    def peek(s, n=0): return s.t[s.i + n].t if s.i + n < len(s.t) else None
    def tok(s): return s.t[s.i] if s.i < len(s.t) else None
    def eat(s, x):
        if s.peek() != x: raise Bad(f'expected {x}, found {s.peek()}')
        s.i += 1
    def done(s): return s.i >= len(s.t)
    def shift_here(s):
        return (s.peek() == '>' and s.peek(1) == '>' and s.t[s.i].pos + 1 == s.t[s.i + 1].pos)

    def expr(s, tmpl=False):
        a = s.seq(tmpl)
        while s.peek() == '|':
            s.i += 1; b = s.seq(tmpl); a = binop('|', a, b)
        return a
    def seq(s, tmpl):
        a = s.mod(tmpl)
        while not tmpl and s.shift_here():
            s.i += 2; b = s.mod(tmpl); a = binop('>>', a, b)
        return a
    def mod(s, tmpl):
        a = s.unary(tmpl)
        while s.peek() == '%':
            s.i += 1; b = s.unary(tmpl); a = binop('%', a, b)
        return a
    def unary(s, tmpl):
        if s.peek() in ('!', '~', '+', '*'):
            o = s.peek(); s.i += 1
            a = s.unary(tmpl)
            return unop(o, a)
        if s.peek() == '-':
            s.i += 1; a = s.unary(tmpl)
            raise Bad('negative number')
        return s.postfix()
    def args(s, close):
        out = []
        while s.peek() != close:
            if s.done(): raise Bad('unclosed')
            out.append(s.init())
            if s.peek() == ',': s.i += 1
        s.eat(close)
        return out
    def init(s):
        """an expression or a braced list"""
        if s.peek() == '{':
            s.i += 1
            return Val('braces', None, items=s.args('}'))
        return s.expr()
    def targs(s):
        s.eat('<'); out = []
        while s.peek() != '>':
            if s.done(): raise Bad('unclosed <')
            if s.peek() == '{':
                out.append(s.init())
            else:
                out.append(s.expr(tmpl=True))
            if s.peek() == '...': raise Bad('pack')
            if s.peek() == ',': s.i += 1
        s.eat('>')
        return out
    def postfix(s):
        a = s.primary()
        while True:
            if s.peek() == '(':
                s.i += 1; a = call(a, s.args(')'), False)
            elif s.peek() == '{':
                s.i += 1; a = call(a, s.args('}'), True)
            elif s.peek() == '::' :
                s.i += 1; m = s.tok(); s.i += 1
                ta = s.targs() if s.peek() == '<' else None
                a = member(a, m.t, ta)
            elif s.peek() == '.' and a.kind == 'eps' and s.peek(1) == 'of':
                s.i += 2; s.targs(); a = Val('parser', '.epsilon')
            elif s.peek() == '=' and a.kind == 'named_sub':
                s.i += 1; b = s.mod(False)
                # `name<"x"> = p`, p may itself be a sequence or choice: assignment binds weakest
                while s.peek() == '|' or s.shift_here():
                    if s.peek() == '|': s.i += 1; b = binop('|', b, s.seq(False))
                    else: s.i += 2; b = binop('>>', b, s.mod(False))
                a = Val('subst', f'({a.lean}, {as_sub(b)})')
            else:
                return a
    def primary(s):
        t = s.tok()
        if t is None: raise Bad('empty expression')
        if t.t == '(':
            # a cast `(int)0`?
            if s.peek(1) in ('int',) and s.peek(2) == ')':
                s.i += 3; return s.unary(False)
            s.i += 1; a = s.expr(); s.eat(')'); return a
        if t.k == 'str':
            s.i += 1
            m = re.match(r'(L|u8|u|U)?"(.*)"(_\w+)?$', t.t, re.S)
            body, suf = unescape(m.group(2)), m.group(3)
            if m.group(1): raise Bad('other character type')
            if suf is None: return Val('text', codes(body), raw=body)
            if suf in UDL: return Val('term', f'({UDL[suf]} {codes(body)})')
            raise Bad('suffix ' + suf)
        if t.k == 'chr':
            s.i += 1
            m = re.match(r"(L|u8|u|U)?'(.*)'(_\w+)?$", t.t, re.S)
            if m.group(1): raise Bad('other character type')
            body, suf = unescape(m.group(2)), m.group(3)
            if suf is None: return Val('num', str(ord(body)), chr=body)
            if suf in UDL: return Val('term', f'({UDL[suf]} {codes(body)})')
            raise Bad('suffix ' + suf)
        if t.k == 'num':
            s.i += 1
            return Val('num', re.sub(r'[uUlL]+$', '', t.t))
        if t.k == 'id':
            s.i += 1
            n = t.t
            for pre in ('k3::tok3n::detail::', 'k3::tok3n::', '::'):
                if n.startswith(pre): n = n[len(pre):]
            if n == 'typename': return s.primary()
            if n == 'decltype':
                s.eat('('); a = s.expr(); s.eat(')'); return a
            if n == 'TT':
                s.eat('('); a = s.expr(); s.eat(')'); return a
            v = s.env.get(n)
            if v is not None and not isinstance(v, Exception) and v.kind == 'talias':
                ta = s.targs(); s.env.push()
                try:
                    for q, a in zip(v.params, ta): s.env.set(q, a)
                    return ev(v.toks, s.env)
                finally: s.env.pop()
            if v is not None:
                if isinstance(v, Exception): raise Bad(f'{n}: {v}')
                return v
            if '::' in n and not n.startswith('std::'):
                head, *rest = n.split('::')
                v = s.env.get(head)
                if v is None and head in TYPES: v = Val('type', TYPES[head], name=head)
                if isinstance(v, Exception): raise Bad(f'{head}: {v}')
                if v is None: raise Bad('unknown ' + n)
                for j, r in enumerate(rest):
                    ta = s.targs() if j == len(rest) - 1 and s.peek() == '<' else None
                    v = member(v, r, ta)
                return v
            ta = None
            if s.peek() == '<' and (n in TMPL or n in TYPE_TMPL or n in MODS_T or n in ('e', 'integral_constant', 'index_c', 'static_array', 'named_parser', 'sub', 'name', 'multi_modifier', 'underlying_v', 'underlying_t') or n in BASIC or n in SETS):
                ta = s.targs()
            return name(n, ta, s.env)
        raise Bad('token ' + t.t)

def as_term(v):
    if v.kind == 'named_sub': return f'(M (.name {v.lean}))'
    if v.kind == 'term': return v.lean
    if v.kind == 'parser': return f'(P {v.lean})'
    if v.kind == 'mod': return f'(M {v.lean})'
    raise Bad(f'not a parser: {v}')
def as_sub(v): return as_term(v)

def binop(o, a, b):
    if o == '|' and b.kind == 'eps' and a.kind != 'eps': return Val('term', f'(tOrEps {as_term(a)})')
    if a.kind == 'eps' or b.kind == 'eps': raise Other()
    f = {'|': 'tOr', '>>': 'tThen', '%': 'tMod'}[o]
    return Val('term', f'({f} {as_term(a)} {as_term(b)})')
def unop(o, a):
    f = {'!': 'tNot', '~': 'tMaybe', '+': 'tPlus', '*': 'tStar'}[o]
    return Val('term', f'({f} {as_term(a)})')

def as_parser(v):
    if v.kind == 'parser': return v.lean
    if v.kind == 'term': return f'(get {v.lean})'
    raise Bad(f'not a parser type: {v}')
def as_text(v):
    if v.kind == 'text': return v.lean
    if v.kind == 'array': return v.lean
    if v.kind == 'num': return f'[{v.lean}]'
    raise Bad(f'not a text: {v}')
def as_index(v):                   # the size of exactly_parser is an index_c; another integral type makes another class
    if v.kind != 'num' or hasattr(v, 'integral'): raise Bad('size of another type')
    return v.lean

def as_type(v):
    if v.kind == 'type': return v.lean
    raise Bad(f'not a type: {v}')
def as_exp(v):
    if v.kind in ('text', 'array'): return f'(.text {v.lean})'
    if v.kind == 'num': return f'(.num {v.lean})'
    if v.kind == 'exp': return v.lean
    if v.kind == 'braces': return '(.node [' + ', '.join(as_exp(x) for x in v.items) + '])'
    raise Bad(f'not a value: {v}')
def as_fn(v):
    if v.kind == 'fn': return v.lean
    if v.kind == 'lambda':
        if v.text.startswith('[ ] ( auto && v ) { using V = std::ranges::range_value_t'): return 'f_parity'
        if v.text in FNS: return FNS[v.text]
        raise Bad('unknown callback ' + v.text)
    raise Bad(f'not a callback: {v}')
def as_const(v):
    if v.kind == 'num' and hasattr(v, 'chr'): return f'(cChar {v.lean})'
    if v.kind == 'num': return f'(cInt {v.lean})'
    if v.kind == 'const': return v.lean
    raise Bad(f'not a constant: {v}')

def lst(f, vs): return '[' + ', '.join(f(v) for v in vs) + ']'

def named(p, s):
    return f'(.named {as_parser(p)} {nm(s)})'
def nm(s):
    return f'⟨0, {as_text(s)}⟩'

TMPL = {
    'any_of_parser': lambda a: f'(.anyOf {as_text(a[0])})',
    'none_of_parser': lambda a: f'(.noneOf {as_text(a[0])})',
    'all_of_parser': lambda a: f'(.allOf {as_text(a[0])})',
    'anything_parser': lambda a: '.anything',
    'epsilon_parser': lambda a: '.epsilon',
    'choice_parser': lambda a: f'(.choice {lst(as_parser, a)})',
    'sequence_parser': lambda a: f'(.sequence {lst(as_parser, a)})',
    'maybe_parser': lambda a: f'(.maybe {as_parser(a[0])})',
    'exactly_parser': lambda a: f'(.exactly {as_parser(a[0])} {as_index(a[1])})',
    'one_or_more_parser': lambda a: f'(.oneOrMore {as_parser(a[0])})',
    'zero_or_more_parser': lambda a: f'(.zeroOrMore {as_parser(a[0])})',
    'delimit_parser': lambda a: f'(.delimit {as_parser(a[0])} {as_parser(a[1])})',
    'ignore_parser': lambda a: f'(.ignore {as_parser(a[0])})',
    'complete_parser': lambda a: f'(.complete {as_parser(a[0])})',
    'join_parser': lambda a: f'(.join {as_parser(a[0])})',
    'map_parser': lambda a: f'(.map {as_parser(a[0])} (.user {as_fn(a[1])}))',
    'filter_parser': lambda a: f'(.filter {as_parser(a[0])} (.user {as_fn(a[1])}))',
    'apply_map_parser': lambda a: f'(.map {as_parser(a[0])} (.apply (.user {as_fn(a[1])})))',
    'apply_filter_parser': lambda a: f'(.filter {as_parser(a[0])} (.apply (.user {as_fn(a[1])})))',
    'into_parser': lambda a: f'(.map {as_parser(a[0])} (.construct {as_type(a[1])}))',
    'apply_into_parser': lambda a: f'(.map {as_parser(a[0])} (.apply (.construct {as_type(a[1])})))',
    'constant_parser': lambda a: f'(.map {as_parser(a[0])} (.const {as_const(a[1])}))',
    'defaulted_parser': lambda a: f'(.map {as_parser(a[0])} (.deflt {as_type(a[1])}))',
    'named_parser': lambda a: named(a[0], a[1]),
}
ARITY = {'exactly_parser': 2, 'delimit_parser': 2, 'map_parser': 2, 'filter_parser': 2, 'apply_map_parser': 2,
         'apply_filter_parser': 2, 'into_parser': 2, 'apply_into_parser': 2, 'constant_parser': 2,
         'defaulted_parser': 2, 'named_parser': 2, 'choice_parser': None, 'sequence_parser': None}
TYPE_TMPL = {
    'std::vector': lambda a: f'(.vec {as_type(a[0])})',
    'std::array': lambda a: f'(.arr {as_type(a[0])} {a[1].lean})',
    'std::optional': lambda a: f'(.opt {as_type(a[0])})',
    'std::tuple': lambda a: f'(.tup {lst(as_type, a)})',
    'std::variant': lambda a: f'(.var {lst(as_type, a)})',
    'std::pair': lambda a: f'(.pair {as_type(a[0])} {as_type(a[1])})',
    'output_span': lambda a: '.span',
    'MoveOnlyWrapper': lambda a: f'(tMove {as_type(a[0])})',
    'CopyOnlyWrapper': lambda a: f'(tCopy {as_type(a[0])})',
}
MODS = {'complete': '.complete', 'ignore': '.ignore', 'join': '.join'}
MODS_T = {
    'exactly': lambda a: f'(.exactly {a[0].lean})',
    'map': lambda a: f'(.map {as_fn(a[0])})',
    'filter': lambda a: f'(.filter {as_fn(a[0])})',
    'apply': lambda a: f'(.apply {as_fn(a[0])})',
    'apply_filter': lambda a: f'(.applyFilter {as_fn(a[0])})',
    'into': lambda a: f'(.into {as_type(a[0])})',
    'apply_into': lambda a: f'(.applyInto {as_type(a[0])})',
    'constant': lambda a: f'(.constant {as_const(a[0])})',
    'defaulted': lambda a: f'(.defaulted {as_type(a[0])})',
}
UDL = {'_all': 'lAll', '_any': 'lAny', '_none': 'lNone', '_ign': 'lIgn', '_all_of': 'lAll', '_any_of': 'lAny', '_none_of': 'lNone', '_ignore': 'lIgn'}
BASIC = {'any_of': 'lAny', 'none_of': 'lNone', 'all_of': 'lAll', 'ign': 'lIgn', 'any': 'lAny', 'none': 'lNone', 'all': 'lAll'}
MOD_TYPES = {'ignore_modifier': '.ignore', 'join_modifier': '.join', 'complete_modifier': '.complete'}

def name(n, ta, env):
    if n in TMPL:
        if ta is None: return Val('tmpl', n)
        return Val('parser', TMPL[n](ta))
    if n in TYPE_TMPL:
        if ta is None: return Val('ctor', n)
        return Val('type', TYPE_TMPL[n](ta), name=n)
    if n == 'delimit' and ta is None: return Val('api', 'delimit')
    if n == 'delimit_keep' and ta is None: return Val('api', 'delimit_keep')
    if n in ('delimit_inner_modifier', 'delimit_keep_inner_modifier'): raise Bad(n)
    if n == 'sub': return Val('api', 'sub')
    if n in MODS: return Val('mod', MODS[n])
    if n in MODS_T and ta is not None: return Val('mod', MODS_T[n](ta))
    if n == 'name' and ta is not None:
        return Val('named_sub', nm(ta[0]), text=ta[0])
    if n == 'e': return Val('e', None, ty=ta)
    if n in ('integral_constant', 'index_c'):
        if not ta: raise Bad(n)
        if n == 'integral_constant' and ta[0].kind == 'num' and not hasattr(ta[0], 'chr'):
            return Val('num', ta[0].lean, integral=True)
        return ta[0]
    if n in ('static_array', 'std::array'):
        return Val('ctor', 'static_array')
    if n in MOD_TYPES: return Val('mod', MOD_TYPES[n])
    if n == 'multi_modifier': return Val('mod', f'(.multi {lst(lambda v: v.lean, ta)})')
    if n in ('underlying_v', 'underlying_t'): return underlying(ta[0])
    if n in SETS: return Val('array', '[' + ', '.join(map(str, SETS[n](nums(ta[0]), nums(ta[1])))) + ']')
    if n in BASIC:
        f = BASIC[n]
        if ta is None: return Val('basicapi', f)
        return Val('term', f'({f} {basic_arg(ta)})')
    if n == 'eps': return Val('eps', None)
    if n == 'anything': return Val('parser', '.anything')
    if n == 'std::nullopt': return Val('exp', '.null')
    if n == 'nullptr': return Val('const', 'cNull')
    if n in ('true', 'false'): return Val('const', f'(cBool {n})', exp='(.num 1)' if n == 'true' else '(.num 0)')
    if n in ELEMS: return Val('num', ELEMS[n])
    if n in TYPES: return Val('type', TYPES[n], name=n)
    if n in CALLBACKS: return Val('fn', CALLBACKS[n])
    raise Bad('unknown ' + n)

def basic_arg(ta):
    if len(ta) == 1 and ta[0].kind in ('text', 'array'): return ta[0].lean
    if all(x.kind == 'num' for x in ta): return '[' + ', '.join(x.lean for x in ta) + ']'
    raise Bad('argument of a literal')

def call(f, args, braces):
    if f.kind in ('parser', 'mod', 'term') and not args and braces: return f
    if f.kind == 'array' and not args: return f        # set_union<..>()
    if f.kind == 'named_sub':
        if len(args) == 1: return Val('term', f'(tCall (M (.name {f.lean})) [{as_term(args[0])}])')
    if f.kind in ('mod', 'term'):
        return Val('term', f'(tCall {as_term(f)} {lst(as_term, args)})')
    if f.kind == 'api' and f.lean in ('delimit', 'delimit_keep'):
        k = 'tDelimit' if f.lean == 'delimit' else 'tDelimitKeep'
        return Val('term', f'({k} {lst(as_term, args)})')
    if f.kind == 'api' and f.lean == 'sub':
        if args and args[0].kind != 'subst':
            return Val('term', f'(tSubOn {as_term(args[0])} {lst(lambda v: v.lean if v.kind == "subst" else bad("sub argument"), args[1:])})')
        return Val('term', f'(tSub {lst(lambda v: v.lean if v.kind == "subst" else bad("sub argument"), args)})')
    if f.kind == 'e':
        if len(args) == 1 and args[0].kind == 'text':
            if f.ty and f.ty[0].kind == 'type' and f.ty[0].name in ('int', 'wchar_t'): raise Bad('other character type')
            return Val('array', args[0].lean)
        if all(x.kind == 'num' for x in args): return Val('array', '[' + ', '.join(x.lean for x in args) + ']')
        raise Bad('e(...)')
    if f.kind == 'ctor' and f.lean == 'static_array':
        if len(args) == 1 and args[0].kind == 'text': return Val('array', args[0].lean)
        if all(x.kind == 'num' for x in args): return Val('array', '[' + ', '.join(x.lean for x in args) + ']')
        raise Bad('static_array')
    if f.kind == 'ctor':                       # std::tuple("a", "b") with deduction
        if f.lean == 'std::optional': return Val('exp', as_exp(args[0]))
        return Val('exp', '(.node [' + ', '.join(as_exp_c(x) for x in args) + '])')
    if f.kind == 'type':
        if braces: return Val('exp', '(.node [' + ', '.join(as_exp_c(x) for x in args) + '])')
        if len(args) == 1 and args[0].kind == 'braces':
            return Val('exp', as_exp_c(args[0]))
        if len(args) == 1 and f.name in ('std::optional',): return Val('exp', as_exp_c(args[0]))
        if len(args) == 1 and f.name in SCALARS: return Val('exp', as_exp_c(args[0]))
        return Val('exp', '(.node [' + ', '.join(as_exp_c(x) for x in args) + '])')
    if f.kind == 'fn':                         # func4(3) is the callback of Check.lean, func4(2) another one
        if len(args) == 1 and args[0].kind == 'num' and args[0].lean != '3': return Val('fn', f'({f.lean} + 100 * {args[0].lean})')
        return f
    raise Bad(f'call of {f}')
def underlying(v):
    parts = split_top(full(v))
    if parts[0] in ('.anyOf', '.noneOf', '.allOf'): return Val('array', parts[1])
    return Val('parser', parts[1])
def full(v): return v.__dict__.get('full') or v.lean
def nums(v): return [int(x) for x in v.lean.strip('[]').split(',') if x.strip()]
SETS = {'set_union': lambda a, b: sorted(set(a) | set(b)), 'set_intersection': lambda a, b: sorted(set(a) & set(b)),
        'set_difference_left': lambda a, b: sorted(set(a) - set(b)), 'set_difference_right': lambda a, b: sorted(set(b) - set(a)),
        'combine_strings': lambda a, b: a + b}
def bad(x): raise Bad(x)
def as_exp_c(v):
    if v.kind == 'const': return v.__dict__.get('exp') or '.null'
    if v.kind == 'braces': return '(.node [' + ', '.join(as_exp_c(x) for x in v.items) + '])'
    return as_exp(v)

def member(v, m, ta):
    m = m.replace('template ', '')
    if m == 'result_for' and v.kind == 'parser': return Val('type', f'(rt {v.lean})', name='result_for')
    if m == 'make' and v.kind == 'type': return Val('fn', f'(fMake {v.lean})')
    if v.kind == 'lambda': return v
    raise Bad(f'member {m}')

# ---------------------------------------------------------------- assertions
def split_args(toks):
    out, cur, d, a = [], [], 0, 0
    for i, t in enumerate(toks):
        if t.t in '([{' and t.k == 'op': d += 1
        if t.t in ')]}' and t.k == 'op': d -= 1
        if t.t == ',' and t.k == 'op' and d == 0:
            out.append(cur); cur = []
        else: cur.append(t)
    out.append(cur)
    return out

def ev(toks, env, init=False):
    p = P(toks, env)
    v = p.init() if init else p.expr()
    if not p.done(): raise Bad('trailing ' + ' '.join(t.t for t in toks[p.i:]))
    return v

def join_args(args, a, b):
    """arguments a..b as one token list (macro arguments split inside <...>)"""
    out = []
    for x in args[a:b]:
        if out: out.append(Tok('op', ',', -1, 0))
        out += x
    return out

FAM_CTOR = {'any_of_family': '.anyOf', 'none_of_family': '.noneOf', 'all_of_family': '.allOf',
  'anything_family': '.anything', 'epsilon_family': '.epsilon', 'choice_family': '.choice', 'sequence_family': '.sequence',
  'maybe_family': '.maybe', 'exactly_family': '.exactly', 'one_or_more_family': '.oneOrMore', 'zero_or_more_family': '.zeroOrMore',
  'delimit_family': '.delimit', 'ignore_family': '.ignore', 'complete_family': '.complete', 'join_family': '.join',
  'map_family': '.map', 'filter_family': '.filter', 'named_family': '.named', 'custom_family': '.custom'}
def family(toks):
    n = toks[0].t.split('::')[-1]
    if len(toks) == 1 and n in FAM_CTOR: return n
    raise Bad('family ' + ' '.join(t.t for t in toks))

class Other(Exception): pass       # an assertion about another character type

def is_other(toks):
    """an input of another character type than the literals of the parser"""
    for i, t in enumerate(toks):
        if t.k in ('str', 'chr') and t.t[0] in 'LuU': return True
        if t.t == 'e' and i + 2 < len(toks) and toks[i + 1].t == '<' and toks[i + 2].t in ('int', 'wchar_t'): return True
    return False

def assertion(n, args, env):
    flat = [t for a in args for t in a]
    if is_other(flat): raise Other()
    E = lambda i: ev(args[i], env)
    if n == 'ASSERT_PARSE_SUCCESS':
        p = E(0); inp = as_text(E(1)); rem = as_text(ev(args[-1], env)); out = as_exp_c(ev(join_args(args, 2, len(args) - 1), env))
        return f'.success {as_parser(p)} {inp} {out} {rem}'
    if n == 'ASSERT_PARSE_SUCCESS_VOID':
        return f'.successVoid {as_parser(E(0))} {as_text(E(1))} {as_text(E(2))}'
    if n == 'ASSERT_PARSE_FAILURE':
        return f'.failure {as_parser(E(0))} {as_text(E(1))}'
    if n == 'ASSERT_PARSE_LOOKAHEAD_ONLY':
        return f'.lookOnly {as_parser(E(0))} {as_text(E(1))} {as_text(E(2))}'
    if n == 'ASSERT_IS_PARSER':
        if args[1][0].t in OTHER_V: raise Other()
        p = E(0); t = ev(join_args(args, 3, len(args)), env)
        return f'.isParser {as_parser(p)} {family(args[2])} {as_type(t)}'
    if n == 'ASSERT_IS_NOT_PARSER':
        if args[1][0].t in OTHER_V: raise Other()
        return f'.isNotParser {as_parser(E(0))} {family(args[2])}'
    if n in ('ASSERT_PARSER_VALUES_EQ', 'ASSERT_PARSER_VALUES_NE'):
        return f'.parsers{n[-2:].capitalize()} {as_term(E(0))} {as_term(E(1))}'
    if n in ('ASSERT_MODIFIER_VALUES_EQ', 'ASSERT_MODIFIER_VALUES_NE'):
        return f'.modifiers{n[-2:].capitalize()} {as_term(E(0))} {as_term(E(1))}'
    if n in ('DEP_ASSERT_PARSER_VALUES_EQ', 'DEP_ASSERT_PARSER_VALUES_NE'):
        return f'.parsers{n[-2:].capitalize()} {as_term(E(0))} {as_term(E(1))}'
    if n in ('ASSERT_MODIFIER_CALLABLE_R', 'DEP_ASSERT_MODIFIER_CALLABLE_R'):
        ps = [ev(a, env) for a in split_args(args[1][1:-1])]
        return f'.parsersEq {call(E(0), ps, False).lean} {as_term(E(2))}'
    if n in ('ASSERT_MODIFIER_CALLABLE', 'DEP_ASSERT_MODIFIER_CALLABLE', 'ASSERT_MODIFIER_NOT_CALLABLE', 'DEP_ASSERT_MODIFIER_NOT_CALLABLE'):
        ps = [ev(a, env) for a in split_args(args[1][1:-1])]
        return f'{".notParser" if "NOT" in n else ".isTerm"} {call(E(0), ps, False).lean}'
    if n in ('ASSERT_MODIFIER_MODULO_OPERABLE_R', 'DEP_ASSERT_MODIFIER_MODULO_OPERABLE_R'):
        return f'.parsersEq {binop("%", E(0), E(1)).lean} {as_term(E(2))}'
    if n in ('ASSERT_MODIFIER_MODULO_OPERABLE', 'DEP_ASSERT_MODIFIER_MODULO_OPERABLE'):
        return f'.isTerm {binop("%", E(0), E(1)).lean}'
    if n in ('ASSERT_MODIFIER_NOT_MODULO_OPERABLE', 'DEP_ASSERT_MODIFIER_NOT_MODULO_OPERABLE'):
        return f'.notParser {binop("%", E(0), E(1)).lean}'
    if n in ('DEP_ASSERT_UNARY_OPERABLE', 'DEP_ASSERT_UNARY_NOT_OPERABLE'):
        return f'{".notParser" if "NOT" in n else ".isTerm"} {unop(args[0][0].t, E(1)).lean}'
    if n in ('DEP_ASSERT_BINARY_OPERABLE', 'DEP_ASSERT_BINARY_NOT_OPERABLE'):
        o = ''.join(t.t for t in args[0])
        return f'{".notParser" if "NOT" in n else ".isTerm"} {binop(o, E(1), E(2)).lean}'
    if n in ('ASSERT_PARSER_CONSTRUCTIBLE', 'ASSERT_PARSER_NOT_CONSTRUCTIBLE', 'ASSERT_BASIC_PARSER_CONSTRUCTIBLE', 'ASSERT_BASIC_PARSER_NOT_CONSTRUCTIBLE'):
        tm = args[0][0].t.split('::')[-1]
        if tm not in TMPL: raise Bad('template ' + tm)
        pr = P(join_args(args, 1, len(args)), env); vs = []
        while not pr.done():
            vs.append(pr.expr(tmpl=True))
            if not pr.done(): pr.eat(',')
        ar = ARITY.get(tm, 1)
        if ar is not None and len(vs) != ar: raise Bad('another number of template arguments')
        return f'{".notWf" if "NOT" in n else ".isWf"} {TMPL[tm](vs)}'
    raise Bad('macro ' + n)

# ---------------------------------------------------------------- files
def norm_src(toks):
    x = norm(toks)
    for a, b in ((' ( ', '('), ('( ', '('), (' )', ')'), (' ,', ','), (' < ', '<'), (' >', '>'), (' { ', '{'), ('{ ', '{'), (' }', '}'), ('::', '::')): x = x.replace(a, b)
    return x[:150]
def norm(toks): return ' '.join(t.t for t in toks)

def match_close(toks, i):
    d = 0
    while i < len(toks):
        if toks[i].k == 'op' and toks[i].t in '([{': d += 1
        if toks[i].k == 'op' and toks[i].t in ')]}':
            d -= 1
            if d == 0: return i
        i += 1
    raise SyntaxError('unbalanced')

def define(env, n, toks, samples=False):
    """using n = toks / constexpr auto n = toks"""
    try:
        if toks and toks[0].t == '[':
            env.set(n, Val('lambda', None, text=norm(toks))); return
        if norm(toks) == '::value_type' or norm(toks) == 'value_type':
            return
        v = ev(toks, env, init=True)
        if SAMPLES is not None and v.kind == 'parser' and v.lean.startswith('(') or SAMPLES is not None and v.kind == 'parser' and v.lean[0] == '.':
            nm_ = n if n[0] != '_' else 's' + n
            if SAMPLES.setdefault(nm_, v.lean) != v.lean: raise SyntaxError(n)
            v = Val('parser', nm_, full=v.lean)
        env.set(n, v)
    except (Bad, IndexError, AttributeError) as e:
        env.set(n, Bad(str(e)))

class Runner:
    def __init__(s, macros, env):
        s.macros, s.env = macros, env
        s.test = None; s.out = []; s.skipped = []; s.other = 0

    def statements(s, toks):
        env, i = s.env, 0
        n = len(toks)
        while i < n:
            t = toks[i]
            if t.t == '{':
                j = match_close(toks, i); env.push(); s.statements(toks[i + 1:j]); env.pop(); i = j + 1; continue
            if t.t == ';': i += 1; continue
            if t.t in ('TEST',) and toks[i + 1].t == '(':
                j = match_close(toks, i + 1)
                s.test = ' / '.join(unescape(x[0].t.strip('"')) for x in split_args(toks[i + 2:j]))
                k = match_close(toks, j + 1)
                env.push(); s.statements(toks[j + 2:k]); env.pop(); i = k + 1; s.test = None; continue
            if t.t == 'FIXTURE': i = match_close(toks, i + 1) + 1; continue
            if t.t == 'namespace' :
                j = i
                while toks[j].t not in '{;=': j += 1
                if toks[j].t == '{':
                    k = match_close(toks, j); s.statements(toks[j + 1:k]); i = k + 1
                else:
                    while toks[j].t != ';': j += 1
                    i = j + 1
                continue
            if t.t == 'template' or t.t in ('struct', 'class', 'enum') or (t.t == 'constexpr' and toks[i + 1].t in ('struct',)) or (t.t in ('constexpr', 'consteval', 'static', 'inline') and s.is_function(toks, i)):
                j = i
                while toks[j].t not in ('{', ';'): j += 1
                nm_ = toks[i + 1].t if t.t in ('struct', 'class') else None
                if toks[j].t == '{':
                    k = match_close(toks, j)
                    body = norm(toks[i:k + 1])
                    if nm_:
                        env.set(nm_, CUSTOMS_get(nm_, body))
                    i = k + 1
                    while i < n and toks[i].t != ';' and t.t in ('struct', 'class', 'constexpr', 'enum'):
                        i += 1
                else:
                    if t.t == 'template' and toks[i + 1].t == '<':
                        k = i + 2
                        while toks[k].t != '>': k += 1
                        if toks[k + 1].t == 'using':
                            env.set(toks[k + 2].t, Val('talias', None, params=[x[-1].t for x in split_args(toks[i + 2:k])], toks=toks[k + 4:j]))
                    i = j + 1
                continue
            # a statement up to ;
            j, d = i, 0
            while j < n:
                if toks[j].k == 'op' and toks[j].t in '([{': d += 1
                if toks[j].k == 'op' and toks[j].t in ')]}': d -= 1
                if toks[j].t == ';' and d == 0: break
                # a macro that ends without semicolon
                j += 1
            st = toks[i:j]; i = j + 1
            s.statement(st)
    def is_function(s, toks, i):
        j = i
        while toks[j].t not in ('=', ';', '{', '('): j += 1
        if toks[j].t != '(': return False
        k = match_close(toks, j)
        while toks[k].t not in ('{', ';', '='): k += 1
        return toks[k].t == '{'
    def statement(s, st):
        env = s.env
        t = st[0].t
        if t == 'using':
            if st[1].t == 'namespace': return
            if len(st) > 2 and st[2].t == '=': define(env, st[1].t, st[3:])
            return
        if t in ('constexpr', 'static', 'inline', 'auto', 'const'):
            k = next((j for j, x in enumerate(st) if x.t == '='), None)
            if k is None:
                # `constexpr Any1 any1` / `constexpr auto x{...}`
                if len(st) >= 3 and st[-1].k == 'id': define(env, st[-1].t, st[1:-1])
                return
            define(env, st[k - 1].t, st[k + 1:])
            return
        if t in ('if', 'for', 'return', 'static_assert', 'else'): 
            s.skipped.append((s.test, st[0].line, norm(st)[:160], t)); return
        if re.match(r'(DEP_)?ASSERT\w*$', t) and len(st) > 1 and st[1].t == '(':
            j = match_close(st, 1)
            s.one(t, split_args(st[2:j]), st[0].line, st)
            return
        if re.search(r'ASSERT', norm(st)):
            s.skipped.append((s.test, st[0].line, norm(st)[:160], 'statement'))
            return
    def one(s, n, args, line, st):
        if n in ('ASSERT_ALL_SAMPLES', 'ASSERT_SAMPLES_2', 'ASSERT_SAMPLES'):
            return s.samples(n, args, line)
        if n == 'ASSERT_PARSER_VALUE_TYPE':
            s.other += 1; return
        try:
            s.out.append((s.test, line, assertion(n, args, s.env), norm_src(st)))
        except Other: s.other += 1
        except (Bad, IndexError, AttributeError) as e:
            if str(e) == 'other character type' or 'other character type' in str(e): s.other += 1
            else: s.skipped.append((s.test, line, norm(st)[:200], str(e)[:200]))
    def sample_list(s, toks):
        out = []
        for t in toks:
            if t.k == 'id':
                if t.t in s.macros: out += s.sample_list(tokenize(s.macros[t.t][1]))
                else: out.append(t.t)
        return out
    def samples(s, n, args, line):
        asserter = args[0][0].t
        params, body = s.macros[asserter]
        if n == 'ASSERT_SAMPLES_2' and 'DIFFERENT_VALUE_TYPES' in norm(args[1]): s.other += 16; return
        if n == 'ASSERT_SAMPLES_2':
            l1, l2 = s.sample_list(args[1]), s.sample_list(args[2])
            combos = [(a, b) for a in l1 for b in l2]
        else:
            l = s.sample_list(tokenize(ALL_SAMPLES)) if n == 'ASSERT_ALL_SAMPLES' else s.sample_list(args[1])
            combos = [(a,) for a in l]
        f = ASSERTERS.get((s.file, asserter))
        toks = tokenize(body)
        for c in combos:
            s.env.push()
            for p_, a in zip(params, c): s.env.set(p_, s.env.get(a) if s.env.get(a) is not None else name(a, None, s.env))
            try: s.asserter(toks, c, line, params)
            finally: s.env.pop()
    def asserter(s, toks, c, line, params):
        """[]<parser PP>(PP) { body }(P{}); the body has if constexpr / else if / else chains"""
        if toks[0].t == '[':
            i = 2
            if toks[i].t == '<':
                j = i
                while toks[j].t != '>': j += 1
                tps = [x[1].t for x in split_args(toks[i + 1:j])]
                for tp, a in zip(tps, c): s.env.set(tp, s.env.get(params[c.index(a)] if len(c) == 1 else params[tps.index(tp)]))
                i = j + 1
            i = match_close(toks, i) + 1
            k = match_close(toks, i)
            body = toks[i + 1:k]
            # the lambda's arguments, `}(P{}, ...)`: which parameter gets which
        else: body = toks
        s.cond(body, c, line)
    def cond(s, toks, c, line):
        i = 0
        while i < len(toks):
            t = toks[i]
            if t.t == 'if':
                # if constexpr (cond) {..} else ...
                j = i + 2 if toks[i + 1].t == 'constexpr' else i + 1
                k = match_close(toks, j)
                m = match_close(toks, k + 1)
                v = s.static(toks[j + 1:k])
                if v is None:
                    s.skipped.append((s.test, line, norm(toks[j + 1:k])[:160], 'condition, ' + ' '.join(c)))
                branch = toks[k + 2:m]
                rest = m + 1
                if v: s.env.push(); s.cond(branch, c, line); s.env.pop()
                # else
                if rest < len(toks) and toks[rest].t == 'else':
                    if toks[rest + 1].t == 'if':
                        # find the end of the chain
                        e = s.chain_end(toks, rest + 1)
                        if v is False: s.cond(toks[rest + 1:e], c, line)
                        i = e
                    else:
                        e = match_close(toks, rest + 1)
                        if v is False: s.env.push(); s.cond(toks[rest + 2:e], c, line); s.env.pop()
                        i = e + 1
                else: i = rest
                continue
            j, d = i, 0
            while j < len(toks):
                if toks[j].k == 'op' and toks[j].t in '([{': d += 1
                if toks[j].k == 'op' and toks[j].t in ')]}': d -= 1
                if toks[j].t == ';' and d == 0: break
                j += 1
            st = toks[i:j]; i = j + 1
            if st:
                before = len(s.skipped)
                s.statement([Tok(x.k, x.t, x.pos, line) for x in st])
    def chain_end(s, toks, i):
        while True:
            j = i + 2 if toks[i + 1].t == 'constexpr' else i + 1
            k = match_close(toks, j); m = match_close(toks, k + 1)
            if m + 1 < len(toks) and toks[m + 1].t == 'else':
                if toks[m + 2].t == 'if': i = m + 2; continue
                return match_close(toks, m + 2) + 1
            return m + 1
    def static(s, toks):
        """`if constexpr` conditions"""
        x = norm(toks)
        return static_condition(x, s.env, toks)

def fam_of(v):
    """family of a parser value, from its Lean text"""
    if isinstance(v, Exception): raise Bad(str(v))
    l = full(v)
    m = re.match(r'\(?\.(\w+)', l)
    return m.group(1) if m else None

def split_top(l):
    """the Lean arguments of `(.ctor a b)`"""
    body = l[1:-1]; out, cur, d = [], '', 0
    for ch in body:
        if ch in '([⟨': d += 1
        if ch in ')]⟩': d -= 1
        if ch == ' ' and d == 0:
            if cur: out.append(cur)
            cur = ''
        else: cur += ch
    if cur: out.append(cur)
    return out

def static_condition(x, env, toks):
    def fam(nm_):
        v = env.get(nm_)
        return fam_of(v)
    F = {k: v[1:] for k, v in FAM_CTOR.items()}
    def atom(a):
        a = a.strip()
        while a.startswith('( ') and a.endswith(' )'): a = a[2:-2].strip()
        neg = False
        if a.startswith('not '): return neg_(atom(a[4:]))
        m = re.match(r'(\w+)::family == (\w+)$', a)
        if m: return fam(m.group(1)) == F[m.group(2)]
        m = re.match(r'(\w+)::family == (\w+)::family$', a)
        if m: return fam(m.group(1)) == fam(m.group(2))
        if re.match(r'std::same_as < typename \w+::value_type , typename \w+::value_type >$', a): return True
        m = re.match(r'std::same_as < (\w+) , (\w+) >$', a)
        if m: return env.get(m.group(1)).lean == env.get(m.group(2)).lean
        m = re.match(r'(\w+)::family != (\w+)$', a) or re.match(r'(\w+)::family ! = (\w+)$', a)
        if m: return fam(m.group(1)) != F[m.group(2)]
        return None
    def neg_(v): return None if v is None else not v
    x = x.strip()
    for conn, comb in ((' || ', any), (' or ', any), (' && ', all), (' and ', all)):
        parts = top_split(x, conn)
        if len(parts) > 1:
            vs = [static_condition(p, env, None) for p in parts]
            if comb is any:
                if any(v is True for v in vs): return True
                return None if None in vs else False
            if any(v is False for v in vs): return False
            return None if None in vs else True
    if x.startswith('( ') and x.endswith(' )'): return static_condition(x[2:-2], env, None)
    if x.startswith('not '): return neg_(static_condition(x[4:], env, None))
    return atom(x)

def top_split(x, conn):
    out, cur, d, i = [], '', 0, 0
    while i < len(x):
        if x[i] == '(': d += 1
        if x[i] == ')': d -= 1
        if d == 0 and x.startswith(conn, i): out.append(cur); cur = ''; i += len(conn); continue
        cur += x[i]; i += 1
    out.append(cur)
    return out

def CUSTOMS_get(n, body):
    if n in CUSTOMS: return Val('parser', f'(.custom {CUSTOMS[n]})')
    if body in FNS: return Val('lambda', None, text=body)
    if n in TYPES: return Val('type', TYPES[n], name=n)
    return Bad('class ' + body[:80])

def load(paths, defs, env, macros):
    r = Runner(macros, env)
    for p in paths:
        text, ms = preprocess(open(p).read(), defs)
        macros.update(ms)
        r.statements(tokenize(text))
    return r

def lean_name(f):
    d, b = os.path.split(f)
    parts = d.split('/') + [b[:-4]]
    return ''.join(x.capitalize() for part in parts for x in re.split(r'[-_]', part) if x not in ('tests',))

def main():
    os.makedirs(OUT, exist_ok=True)
    for f in os.listdir(OUT): os.remove(os.path.join(OUT, f))
    S = REPO + '/tests/common/include/samples/'
    summary, skipped = [], []
    total = 0
    global OTHER_V
    for kind, defs in (('char', {'VALUE_TYPE_CHAR'}), ('non-char', {'VALUE_TYPE_INT'})):
        OTHER_V = OTHERS[kind]
        base = f'{REPO}/tests/{kind}-tests'
        files = sorted(os.path.join(d, f) for d, _, fs in os.walk(base) for f in fs if f.endswith('.cpp') and f != 'main.cpp')
        for path in files:
            env, macros = Env(), {}
            names = ['basic-char', 'sub_parsers', 'adaptor', 'compound', 'divergent', 'repeat', 'macros-char'] if kind == 'char' else ['basic-non-char', 'sub_parsers', 'macros-non-char']
            global ALL_SAMPLES
            ALL_SAMPLES = ('ADAPTOR_SAMPLES BASIC_SAMPLES COMPOUND_SAMPLES DIVERGENT_SAMPLES REPEAT_SAMPLES' if kind == 'char' else 'BASIC_SAMPLES')
            global SAMPLES
            SAMPLES = {}
            load([S + n + '.ipp' for n in names], defs, env, macros)
            write_samples(kind, SAMPLES); SAMPLES = None
            text, ms = preprocess(open(path).read(), defs)
            macros.update(ms)
            r = Runner(macros, env); r.file = os.path.basename(path)
            env.push()
            r.statements(tokenize(text))
            rel = os.path.relpath(path, REPO + '/tests')
            for x in r.skipped: skipped.append((rel,) + x)
            summary.append((rel, len(r.out), len(r.skipped), r.other))
            if not r.out: continue
            write(rel, r.out)
            total += len(r.out)
    with open(os.path.join(os.path.dirname(OUT), 'UNTRANSLATED.txt'), 'w') as f:
        for x in skipped: f.write(f'{x[0]}:{x[2]} [{x[1]}] {x[3]} -- {x[4]}\n')
    for x in summary: print('%-60s %4d translated %4d not, %4d about other types' % x)
    print(total, 'assertions', len(skipped), 'not translated')

SIZE = 60
def write_samples(kind, samples):
    mod = 'Samples' + ('Char' if kind == 'char' else 'NonChar')
    lines = ['import Verif.Tests.Check', '/- Generated by tools/tests2lean.py from tests/common/include/samples. -/', '', 'namespace Tok3n.Tests' + ('.NonChar' if kind != 'char' else ''), '']
    lines += [f'abbrev {k} : Parser Nat := {v}' for k, v in samples.items()]
    lines += ['', 'end Tok3n.Tests' + ('.NonChar' if kind != 'char' else '')]
    open(os.path.join(OUT, mod + '.lean'), 'w').write('\n'.join(lines) + '\n')

def write(rel, out):
    mod = lean_name(rel)
    smp = 'NonChar' if rel.startswith('non') else 'Char'
    nsp = 'Tok3n.Tests' + ('.NonChar' if smp == 'NonChar' else '')
    lines = [f'import Verif.Tests.Gen.Samples{smp}', f'/- Generated by tools/tests2lean.py from tests/{rel}. -/', '', f'namespace {nsp}', '']
    tests = []
    for t, line, a, src in out:
        if not tests or tests[-1][0] != t: tests.append((t, []))
        tests[-1][1].append((line, a, src))
    ns = mod[0].lower() + mod[1:]
    for n, (t, as_) in enumerate(tests):
        # duplicates (the same assertion for several character types)
        seen, uniq = set(), []
        for line, a, src in as_:
            if a not in seen: seen.add(a); uniq.append((line, a, src))
        mods = [x for x in uniq if x[1].startswith('.modifiers')]
        uniq = [x for x in uniq if not x[1].startswith('.modifiers')]
        for m, (line, a, src) in enumerate(mods):
            x, y = split_top('(' + a + ')')[1:]
            lines.append(f'/-- {t} (tests/{rel}:{line}): {src} -/')
            if 'Eq' in a.split(' ')[0]:
                lines.append(f'theorem {ns}_{n + 1}_m{m + 1} : ∃ m, {x} = M m ∧ {y} = M m := ⟨_, rfl, rfl⟩')
            else:
                lines.append(f'theorem {ns}_{n + 1}_m{m + 1} : ∃ m n, {x} = M m ∧ {y} = M n ∧ m ≠ n := ⟨_, _, rfl, rfl, nofun⟩')
            lines.append('')
        for c in range(0, len(uniq), SIZE):
            part = uniq[c:c + SIZE]
            sfx = '' if len(uniq) <= SIZE else f'_{c // SIZE + 1}'
            lines.append(f'/-- {t} (tests/{rel}:{part[0][0]}) -/')
            lines.append(f'theorem {ns}_{n + 1}{sfx} : ∀ a ∈ [')
            for k, (line, a, src) in enumerate(part):
                lines.append(f'    {a}{"" if k == len(part) - 1 else ","}  -- {line}: {src}')
            lines.append('    ], Assertion.Holds a :=')
            lines.append('  Assertion.holds_of_check (by decide +kernel)')
            lines.append('')
    lines.append(f'end {nsp}')
    open(os.path.join(OUT, mod + '.lean'), 'w').write('\n'.join(lines) + '\n')

main()
