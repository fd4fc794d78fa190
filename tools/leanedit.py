"""Finding declarations in a Lean file and taking their proofs out."""
import re

START = re.compile(r"(?:@\[.*\] *)?(?:private |noncomputable |protected )*(theorem|lemma|def|example|instance|structure|inductive|abbrev|"
                   r"section|namespace|end|variable|mutual|open|include|omit|set_option|import|macro|syntax|macro_rules)\b|/--|/-!|/-$|#|-- ")

def spans(lines):
    st = [i for i, l in enumerate(lines) if START.match(l)]
    return st + [len(lines)]

def start_of(lines, ln):
    """the line on which the declaration around line ln starts, or -1"""
    st = spans(lines)
    a = max(i for i in st if i <= ln)
    # a doc comment starts its own block; step over it
    while not re.match(r"(?:@\[.*\] *)?(?:private |noncomputable |protected )*(theorem|lemma|example|instance|def|abbrev)\b", lines[a]):
        prev = [i for i in st if i < a]
        if not prev:
            return -1
        a = prev[-1]
    return a

def sorry_out(lines, a):
    """replace the proof of the declaration starting at line a; returns its name or None"""
    st = spans(lines)
    m = re.match(r"(?:@\[.*\] *)?(?:private |noncomputable |protected )*(theorem|lemma|example|instance|def|abbrev)\s*(\S*)", lines[a])
    kind, name = m.group(1), m.group(2)
    b = min(i for i in st if i > a)
    if kind == "example":
        lines[a:b] = ["\n"]
        # drop a doc comment just above
        j = a - 1
        while j >= 0 and lines[j].strip() == "":
            j -= 1
        if j >= 0 and lines[j].rstrip().endswith("-/"):
            k = j
            while not lines[k].startswith("/-"):
                k -= 1
            if lines[k].startswith("/--"):
                lines[k:j + 1] = ["\n"]
        return "example"
    if kind in ("def", "abbrev"):
        return None
    text = "".join(lines[a:b])
    depth = 0
    cut = None
    for i, ch in enumerate(text):
        if ch in "([{⟨":
            depth += 1
        elif ch in ")]}⟩":
            depth -= 1
        elif depth == 0 and text.startswith(":=", i) and not re.search(r"\blet \S+ (: .*)?$", text[:i].rsplit("\n", 1)[-1]):
            cut = i
            break
        elif depth == 0 and re.match(r"\s+where\s*\n", text[i:]):
            cut = i
            break
        elif depth == 0 and text.startswith("\n  | ", i):
            cut = i
            break
    if cut is None or text[cut:].strip() in (":= sorry", ":= by sorry"):
        return None
    lines[a:b] = [text[:cut].rstrip() + " := sorry\n", "\n"]
    return name
