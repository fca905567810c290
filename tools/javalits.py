#!/usr/bin/env python3
"""Writes lean/Verif/Lemmas/JavaLits.lean: how the string literals of the Java generator are scanned."""
import re, os
root = os.path.join(os.path.dirname(os.path.abspath(__file__)), "..", "lean", "Verif")
lits = []
def take(name, start, end=None):
    t = open(os.path.join(root, "Model", name)).read()
    i = t.index(start)
    j = t.index(end, i) if end else len(t)
    t = t[i:j]
    t = re.sub(r"/-.*?-/", "", t, flags=re.S)
    t = re.sub(r"--[^\n\"]*\n", "\n", t)
    for l in re.findall(r'"(?:[^"\\]|\\.)*"', t):
        if l not in lits: lits.append(l)
take("Java.lean", "def JTy.text", "inductive JNote")
take("JavaClass.lean", "def javaReadValue", "def javaUnit ")
take("JavaClass.lean", "def javaUnit ", "def javaEnum")
take("JavaClass.lean", "/-! ### The text -/")
take("JavaServer.lean", "/-! ### Text -/", "def javaServer ")
take("JavaClient.lean", "/-! ### Text -/", "def javaClient ")
take("JavaExport.lean", "/-! ### Text and paths -/", "def javaPackagePath")
ESC = set("bstnfr\"'\\01234567u")
def unlit(l):
    return l[1:-1].replace("\\\\", "\0").replace("\\n", "\n").replace('\\"', '"').replace("\0", "\\")
def scan(st, t):
    need, stack = [], []
    def code(c):
        if c in "{([": stack.append(c); return "code"
        if c in "})]":
            o = {"}": "{", ")": "(", "]": "["}[c]
            if stack:
                if stack.pop() != o: return None
            else: need.append(o)
            return "code"
        return {'"': "str", "'": "chr", "/": "slash"}.get(c, "code")
    for c in t:
        if st == "code": st = code(c)
        elif st == "slash": st = "line" if c == "/" else "block" if c == "*" else code(c)
        elif st == "line": st = "code" if c in "\r\n" else "line"
        elif st == "block": st = "star" if c == "*" else "block"
        elif st == "star": st = "code" if c == "/" else "star" if c == "*" else "block"
        elif st == "str": st = "code" if c == '"' else "esc" if c == "\\" else None if c in "\r\n" else "str"
        elif st == "esc": st = "str" if c in ESC else None
        elif st == "chr": st = "code" if c == "'" else "chrEsc" if c == "\\" else None if c in "\r\n" else "chr"
        elif st == "chrEsc": st = "chr" if c in ESC else None
        if st is None: return None
    return st, need, stack[::-1]
out = ["import Verif.Lemmas.JavaLex", "/-", "How the pieces of generated Java text are scanned.  Generated by tools/javalits.py from the model.", "-/",
       "namespace Sadl.JavaLits", "open Sadl Sadl.Spec", "", "set_option maxRecDepth 4000", ""]
ch = lambda cs: "".join("'%s' :: " % c for c in cs)
br = lambda cs: "[" + ", ".join("'%s'" % c for c in cs) + "]"
names = {}
def lemma(st, l):
    if (st, l) in names: return names[st, l]
    e, need, left = scan(st, unlit(l))
    name = names[st, l] = "lit%d" % (len(names) + 1)
    out.append("theorem %s (s : List Char) : jrun (.%s, %ss) %s = some (.%s, %ss) :=" % (name, st, ch(need), l, e, ch(left)))
    out.append("  jrun_list (o := %s) (o' := %s) (t := %s) rfl (by decide +kernel) s" % (br(need), br(left), l))
    return name
def wrap(ns):
    lines, cur = [], "   "
    for w in ", ".join(ns).split(" "):
        if len(cur) + len(w) > 140: lines.append(cur); cur = "   "
        cur += " " + w
    lines.append(cur)
    return lines
for l in lits:
    if l == '""': continue
    for st in ("code", "str"):
        r = scan(st, unlit(l))
        if r is None: continue
        # inside of strings there are only the pieces that end one
        if st == "str" and unlit(l).count('"') % 2 == 0: continue
        lemma(st, l)
out += ["", "set_option maxRecDepth 10000 in", "/-- Scans a text that is put together of these pieces. -/",
        'macro "jlex" "[" ts:Lean.Parser.Tactic.simpLemma,* "]" : tactic => `(tactic| simp only [jrun_append, jrun_some,'] + \
       wrap(list(names.values())) + ["    , $ts,*])", ""]
t = open(os.path.join(root, "Model", "JavaText.lean")).read()
for d in ("javaUtilText", "javaTimestampText", "javaExceptionText", "javaClientConfigText"):
    i = t.index("def %s " % d)
    body = t[i:]
    j = re.search(r"\n\n", body)
    body = body[:j.start()]
    st, used = "code", []
    for l in re.findall(r'"(?:[^"\\]|\\.)*"', body):
        n = lemma(st, l)
        if n not in used: used.append(n)
        st = scan(st, unlit(l))[0]
    out += ["theorem %s_run (s : List Char) : jrun (.code, s) %s = some (.code, s) := by" % (d, d), "  unfold %s" % d,
            "  simp only [jrun_append, jrun_some,"] + wrap(used) + ["    ]", ""]
out += ["end Sadl.JavaLits", ""]
open(os.path.join(root, "Lemmas", "JavaLits.lean"), "w").write("\n".join(out))
print(len(names))
