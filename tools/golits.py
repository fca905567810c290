#!/usr/bin/env python3
"""Writes lean/Verif/Lemmas/GoLits.lean: how the string literals of the Go generator are scanned."""
import re, os
root = os.path.join(os.path.dirname(os.path.abspath(__file__)), "..", "lean", "Verif")
lits = []
def take(name, start, end=None):
    t = open(os.path.join(root, "Model", name)).read()
    i = t.index(start)
    j = t.index(end, i) if end else len(t)
    t = re.sub(r"/-.*?-/", "", t[i:j], flags=re.S)
    for l in re.findall(r'"(?:[^"\\]|\\.)*"', t):
        if l not in lits: lits.append(l)
take("Golang.lean", "def GoTy.text", "inductive GoNote")
take("Golang.lean", "def GoField.text", "inductive GoDecl")
take("Golang.lean", "def goSignature", "def goCapitalize")
take("Golang.lean", "def GoFile.text")
take("GoServer.lean", "def GoSource.text", "def goNativeType")
take("GoServer.lean", "def goRefuse", "def goStep ")
take("GoServer.lean", "def GoHandler.text", "def goServerTail")
take("GoServer.lean", "def GoServer.text")
take("GoClient.lean", "def GoArg.text")
ESC = set("abfnrtv\\01234567xuU")
def unlit(l):
    return l[1:-1].replace("\\\\", "\0").replace("\\n", "\n").replace("\\t", "\t").replace('\\"', '"').replace("\0", "\\")
def scan(st, t):
    need, stack = [], []
    def code(c):
        if c in "{([": stack.append(c); return "code"
        if c in "})]":
            o = {"}": "{", ")": "(", "]": "["}[c]
            if stack:
                if stack.pop() != o: return None
            else: need.append(o)
            return "code"
        return {'"': "str", "'": "chr", "`": "raw", "/": "slash"}.get(c, "code")
    for c in t:
        if st == "code": st = code(c)
        elif st == "slash": st = "line" if c == "/" else "block" if c == "*" else code(c)
        elif st == "line": st = "code" if c == "\n" else "line"
        elif st == "block": st = "star" if c == "*" else "block"
        elif st == "star": st = "code" if c == "/" else "star" if c == "*" else "block"
        elif st == "str": st = "code" if c == '"' else "esc" if c == "\\" else None if c == "\n" else "str"
        elif st == "esc": st = "str" if c == '"' or c in ESC else None
        elif st == "chr": st = "code" if c == "'" else "chrEsc" if c == "\\" else None if c == "\n" else "chr"
        elif st == "chrEsc": st = "chr" if c == "'" or c in ESC else None
        elif st == "raw": st = "code" if c == "`" else "raw"
        if st is None: return None
    return st, need, stack[::-1]
out = ["import Verif.Lemmas.GoLex", "/-", "How the pieces of generated Go text are scanned.  Generated by tools/golits.py from the model.", "-/",
       "namespace Sadl.GoLits", "open Sadl Sadl.Spec", "", "set_option maxRecDepth 4000", ""]
ch = lambda cs: "".join("'%s' :: " % c for c in cs)
br = lambda cs: "[" + ", ".join("'%s'" % c for c in cs) + "]"
names = {}
def lemma(st, l):
    if (st, l) in names: return names[st, l]
    e, need, left = scan(st, unlit(l))
    name = names[st, l] = "lit%d" % (len(names) + 1)
    out.append("theorem %s (s : List Char) : grun (.%s, %ss) %s = some (.%s, %ss) :=" % (name, st, ch(need), l, e, ch(left)))
    out.append("  grun_list (o := %s) (o' := %s) (t := %s) rfl (by decide +kernel) s" % (br(need), br(left), l))
    return name
def wrap(ns):
    lines, cur = [], "   "
    for w in ", ".join(ns).split(" "):
        if len(cur) + len(w) > 140: lines.append(cur); cur = "   "
        cur += " " + w
    lines.append(cur)
    return lines
for l in lits:
    if l == '""': continue
    t = unlit(l)
    for st in ("code", "str", "raw", "line"):
        if scan(st, t) is None: continue
        # inside of strings and comments there are only the pieces that end one, and these
        if st == "str" and t.count('"') % 2 == 0 and t[0] != '"' and t not in ("=",): continue
        if st == "raw" and t.count('`') % 2 == 0 and t not in (",omitempty",  ): continue
        if st == "line" and "\n" not in t: continue
        lemma(st, l)
out += ["", "set_option maxRecDepth 10000 in", "/-- Scans a text that is put together of these pieces. -/",
        'macro "glex" "[" ts:Lean.Parser.Tactic.simpLemma,* "]" : tactic => `(tactic| simp only [grun_append, grun_some,'] + \
       wrap(list(names.values())) + ["    , $ts,*])", ""]
for f, d in (("Golang", "goDecimalText"), ("Golang", "goTimestampText"), ("GoServer", "goServerTail")):
    t = open(os.path.join(root, "Model", f + ".lean")).read()
    i = t.index("def %s " % d)
    body = t[i:]
    j = re.search(r"\n\n", body)
    body = body[:j.start()]
    st, used = "code", []
    for l in re.findall(r'"(?:[^"\\]|\\.)*"', body):
        n = lemma(st, l)
        if n not in used: used.append(n)
        st = scan(st, unlit(l))[0]
    out += ["set_option maxRecDepth 10000 in", "theorem %s_run (s : List Char) : grun (.code, s) %s = some (.code, s) := by" % (d, d), "  unfold %s" % d,
            "  simp only [grun_append, grun_some,"] + wrap(used) + ["    ]", ""]
out += ["end Sadl.GoLits", ""]
open(os.path.join(root, "Lemmas", "GoLits.lean"), "w").write("\n".join(out))
print(len(names))
