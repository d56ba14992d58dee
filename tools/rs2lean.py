#!/usr/bin/env python3
"""Translate the loop-free (and simple `for`) part of the Rust sources of
RustSEUIF97 into Lean 4 definitions over an abstract number type.

Usage: rs2lean.py <repo>/src <out dir>

Every generated definition cites the file and line range it was made from.
Functions listed in MANUAL are written by hand (they contain `while` loops or
function pointers).  The translator is a convenience; the generated files are
committed and are what the theorems are about.
"""
import re, sys, os

# ---------------------------------------------------------------- lexer
TOK = re.compile(r"""
  (?P<ws>\s+)
 |(?P<com>//[^\n]*|/\*.*?\*/)
 |(?P<attr>\#\[[^\]]*\])
 |(?P<num>\d[\d_]*(\.(?!\.)\d*)?([eE][+-]?\d+)?)
 |(?P<chr>'[^']')
 |(?P<str>"[^"]*")
 |(?P<id>[A-Za-z_]\w*)
 |(?P<op>\.\.=|->|=>|::|\.\.|&&|\|\||[<>=!+\-*/]=|[-+*/<>=!&|.,;:()\[\]{}?'])
""", re.X | re.S)

class T:
    __slots__ = ("k", "v", "line")
    def __init__(s, k, v, line): s.k, s.v, s.line = k, v, line
    def __repr__(s): return f"{s.v}@{s.line}"

def lex(src):
    pos, line, out = 0, 1, []
    src = src.replace("﻿", "")
    while pos < len(src):
        m = TOK.match(src, pos)
        if not m:
            if src.startswith("//！", pos) or ord(src[pos]) > 127:
                pos += 1; continue
            raise SystemExit(f"lex error line {line}: {src[pos:pos+30]!r}")
        k = m.lastgroup if m.lastgroup else None
        for name in ("ws", "com", "attr", "num", "chr", "str", "id", "op"):
            if m.group(name) is not None: k = name
        v = m.group(0)
        if k not in ("ws", "com", "attr"): out.append(T(k, v, line))
        line += v.count("\n"); pos = m.end()
    out.append(T("eof", "<eof>", line))
    return out

# ---------------------------------------------------------------- parser
class P:
    def __init__(s, toks): s.t, s.i = toks, 0
    def pk(s, o=0): return s.t[s.i + o]
    def nx(s): s.i += 1; return s.t[s.i - 1]
    def at(s, v): return s.pk().v == v and s.pk().k in ("op", "id")
    def eat(s, v):
        if not s.at(v): raise SystemExit(f"expected {v} got {s.pk()}")
        return s.nx()
    def opt(s, v):
        if s.at(v): s.nx(); return True
        return False
    # types -> string
    def ty(s):
        if s.opt("&"): return s.ty()
        if s.opt("("):
            a = []
            while not s.at(")"):
                a.append(s.ty()); s.opt(",")
            s.eat(")"); return "(" + ",".join(a) + ")"
        if s.opt("["):
            a = s.ty()
            if s.opt(";"): s.expr()
            s.eat("]"); return "[" + a + "]"
        if s.at("fn"):
            s.nx(); a = s.ty(); r = ""
            if s.opt("->"): r = s.ty()
            return "fn"
        v = s.nx().v
        if s.opt("<"):
            d = 1
            while d:
                x = s.nx().v
                d += x == "<"; d -= x == ">"
        return v
    # items
    def items(s):
        out = []
        while s.pk().k != "eof":
            s.opt("pub")
            if s.opt("unsafe") and s.opt("extern"): s.nx()
            v = s.pk().v
            if v in ("use", "mod", "type", "extern"):
                while not s.opt(";"):
                    if s.at("{"): s.skipbr(); 
                    else: s.nx()
            elif v in ("struct", "enum"):
                s.nx(); s.nx(); s.skipbr()
            elif v == "impl":
                while not s.at("{"): s.nx()
                s.skipbr()
            elif v == "const":
                out.append(s.const())
            elif v == "fn": out.append(s.fn())
            else: raise SystemExit(f"item? {s.pk()}")
        return out
    def skipbr(s):
        s.eat("{"); d = 1
        while d:
            x = s.nx().v
            d += x == "{"; d -= x == "}"
    def const(s):
        l = s.eat("const").line; n = s.nx().v; s.eat(":"); t = s.ty(); s.eat("="); e = s.expr()
        l2 = s.eat(";").line
        return ("const", n, t, e, l, l2)
    def fn(s):
        l = s.eat("fn").line; n = s.nx().v
        if s.at("<"):
            while not s.at("("): s.nx()
        s.eat("("); ps = []
        while not s.at(")"):
            s.opt("mut"); pn = s.nx().v; s.eat(":"); ps.append((pn, s.ty())); s.opt(",")
        s.eat(")"); rt = "()"
        if s.opt("->"): rt = s.ty()
        while not s.at("{"): s.nx()
        if n == "seuif97": s.skipbr(); b = []  # pyo3 module registration
        else: b = s.block()
        l2 = s.t[s.i - 1].line
        return ("fn", n, ps, rt, b, l, l2)
    def block(s):
        s.eat("{"); st = []
        while not s.at("}"):
            if s.opt(";"): continue
            st.append(s.stmt())
        s.eat("}"); return st
    def stmt(s):
        v = s.pk().v
        if v == "const": return s.const()
        if v == "let":
            s.nx(); s.opt("mut")
            if s.opt("("):
                names = []
                while not s.at(")"):
                    s.opt("mut"); names.append(s.nx().v); s.opt(",")
                s.eat(")"); pat = tuple(names)
            else: pat = s.nx().v
            t = None
            if s.opt(":"): t = s.ty()
            e = None
            if s.opt("="): e = s.expr()
            s.eat(";"); return ("let", pat, t, e)
        if v == "return":
            s.nx(); e = s.expr(); s.opt(";"); return ("return", e)
        if v == "while":
            s.nx(); c = s.expr(); b = s.block(); return ("while", c, b)
        if v == "for":
            s.nx(); x = s.nx().v; s.eat("in"); r = s.expr(nostruct=True)
            incl = None
            if s.opt(".."): hi = s.expr(nostruct=True); r = ("range", r, hi, False)
            elif s.opt("..="): hi = s.expr(nostruct=True); r = ("range", r, hi, True)
            b = s.block(); return ("for", x, r, b)
        if v == "break":
            s.nx(); s.opt(";"); return ("break",)
        e = s.expr()
        for o in ("=", "+=", "-=", "*=", "/="):
            if s.at(o):
                s.nx(); r = s.expr(); s.opt(";")
                if o != "=": r = ("bin", o[0], e, r)
                return ("assign", e, r)
        semi = s.opt(";")
        return ("expr", e, semi)
    # expressions
    def expr(s, nostruct=False):
        s.ns = getattr(s, "ns", False)
        old = s.ns; s.ns = nostruct
        e = s.por(); s.ns = old; return e
    def por(s):
        e = s.pand()
        while s.at("||"): s.nx(); e = ("bin", "||", e, s.pand())
        return e
    def pand(s):
        e = s.pcmp()
        while s.at("&&"): s.nx(); e = ("bin", "&&", e, s.pcmp())
        return e
    def pcmp(s):
        e = s.padd()
        if s.pk().v in ("<", ">", "<=", ">=", "==", "!="):
            o = s.nx().v; e = ("bin", o, e, s.padd())
        return e
    def padd(s):
        e = s.pmul()
        while s.at("+") or s.at("-"):
            o = s.nx().v; e = ("bin", o, e, s.pmul())
        return e
    def pmul(s):
        e = s.pas()
        while s.at("*") or s.at("/"):
            o = s.nx().v; e = ("bin", o, e, s.pas())
        return e
    def pas(s):
        e = s.pun()
        while s.at("as"):
            s.nx(); e = ("as", e, s.ty())
        return e
    def pun(s):
        if s.at("-"): s.nx(); return ("neg", s.pun())
        if s.at("!"): s.nx(); return ("not", s.pun())
        if s.at("&"): s.nx(); return s.pun()
        return s.ppost()
    def ppost(s):
        e = s.prim()
        while True:
            if s.at("."):
                s.nx(); f = s.nx()
                if s.at("("): e = ("meth", e, f.v, s.args())
                else: e = ("field", e, f.v)
            elif s.at("["):
                s.nx(); i = s.expr(); s.eat("]"); e = ("idx", e, i)
            elif s.at("("): e = ("call", e, s.args())
            else: return e
    def args(s):
        s.eat("("); a = []
        while not s.at(")"):
            a.append(s.expr()); s.opt(",")
        s.eat(")"); return a
    def prim(s):
        t = s.pk()
        if t.k == "num": s.nx(); return ("num", t.v)
        if t.k == "chr": s.nx(); return ("chr", t.v)
        if t.k == "str": s.nx(); return ("str", t.v)
        if s.at("("):
            s.nx(); a = []; tup = False
            while not s.at(")"):
                a.append(s.expr())
                if s.opt(","): tup = True
            s.eat(")")
            if len(a) == 1 and not tup: return ("par", a[0])
            return ("tup", a)
        if s.at("["):
            s.nx(); a = []
            while not s.at("]"):
                a.append(s.expr()); s.opt(",")
            s.eat("]"); return ("arr", a)
        if s.at("if"): return s.pif()
        if s.at("match"):
            s.nx(); sc = s.expr(nostruct=True); s.eat("{"); arms = []
            while not s.at("}"):
                pats = [s.pat()]
                while s.opt("|"): pats.append(s.pat())
                s.eat("=>")
                if s.at("{"): b = s.block()
                elif s.at("return"):
                    s.nx(); b = [("return", s.expr())]
                else: b = [("expr", s.expr(), False)]
                s.opt(","); arms.append((pats, b))
            s.eat("}"); return ("match", sc, arms)
        if t.k == "id":
            s.nx()
            n = t.v
            while s.at("::"):
                s.nx(); n += "::" + s.nx().v
            if s.at("{") and not s.ns and n == "para":
                s.nx(); fs = {}
                while not s.at("}"):
                    f = s.nx().v; s.eat(":"); fs[f] = s.expr(); s.opt(",")
                s.eat("}"); return ("struct", n, fs)
            return ("id", n)
        raise SystemExit(f"prim? {t}")
    def pat(s):
        if s.at("-"): s.nx(); return ("neg", ("num", s.nx().v))
        t = s.pk()
        if t.k == "num": s.nx(); return ("num", t.v)
        if t.k == "chr": s.nx(); return ("chr", t.v)
        if t.k == "str": s.nx(); return ("str", t.v)
        n = s.nx().v
        while s.at("::"): s.nx(); n += "::" + s.nx().v
        return ("id", n)
    def pif(s):
        s.eat("if"); c = s.expr(nostruct=True); a = s.block(); b = []
        if s.opt("else"):
            if s.at("if"): b = [("expr", s.pif(), False)]
            else: b = s.block()
        return ("if", c, a, b)

# ---------------------------------------------------------------- emitter
LTY = {"f64": "F", "i32": "Int", "usize": "Nat", "char": "Char", "str": "String", "bool": "Bool"}
def lty(t):
    if t in LTY: return LTY[t]
    if t.startswith("("): return "(" + " × ".join(lty(x) for x in split(t[1:-1])) + ")"
    if t.startswith("["): return "List " + paren(lty(t[1:-1]))
    return {"PAIRS": "PAIRS", "para": "Para F", "R": "OIdRegionArgs", "PROP_EQ": "(F → F → Int → F)", "IF97_EQ": "(F → F → F)"}[t]
def split(x):
    out, d, c = [], 0, ""
    for ch in x:
        if ch == "," and d == 0: out.append(c); c = ""; continue
        d += ch in "(["; d -= ch in ")]"; c += ch
    if c: out.append(c)
    return out
def paren(x): return x if re.fullmatch(r"[\w.]+", x) or (x.startswith("(") and bal(x)) else "(" + x + ")"
def bal(x):
    d = 0
    for i, ch in enumerate(x):
        d += ch == "("; d -= ch == ")"
        if d == 0 and i < len(x) - 1: return False
    return True

PARTIAL = ("th_sub_region", "hs_reg4", "tv_reg2", "th_reg2", "tv_reg5")

class Em:
    """Emit one function."""
    def __init__(s, g, fname, ren, rel):
        s.g, s.fname, s.ren, s.rel = g, fname, dict(ren), rel
        s.types, s.pre = {}, []
    def num(s, v, t):
        v = v.replace("_", "")
        if t == "f64":
            m = re.fullmatch(r"(\d+)(\.(\d*))?([eE]([+-]?\d+))?", v)
            ip, fp, ex = m.group(1), m.group(3) or "0", m.group(5)
            r = ip + "." + fp
            if ex is not None: r += "e" + str(int(ex))
            return r
        return v
    def ty(s, e):
        k = e[0]
        if k == "num": return "f64" if re.search(r"[.eE]", e[1]) else "int"
        if k == "id":
            n = e[1]
            if n in s.types: return s.types[n]
            if n in s.g.consts: return s.g.consts[n]
            return "?"
        if k == "neg": return s.ty(e[1])
        if k == "par": return s.ty(e[1])
        if k == "bin":
            if e[1] in ("+", "-", "*", "/"):
                a = s.ty(e[2]); return a if a not in ("int", "?") else s.ty(e[3])
            return "bool"
        if k == "as": return e[2]
        if k == "call":
            n = e[1][1]
            if n in s.types and s.types[n] in ("PROP_EQ", "IF97_EQ"): return "f64"
            return s.g.frets.get(n, "?")
        if k == "meth": return "f64" if e[2] != "len" else "usize"
        if k == "idx":
            t = s.ty(e[1]); return t[1:-1] if t.startswith("[") else "?"
        if k == "field":
            t = s.ty(e[1])
            if t == "para": return "f64"
            if t.startswith("("): return split(t[1:-1])[int(e[2])]
        if k == "chr": return "char"
        if k == "str": return "str"
        if k in ("if",):
            for x in e[2]:
                if x[0] == "expr" and not x[2]: return s.ty(x[1])
        return "?"
    def ident(s, n):
        n = s.ren.get(n, n)
        n = n.replace("PAIRS::", "PAIRS.")
        if n in ("where", "end", "at", "from", "in", "fun", "open", "then", "have", "show", "by"): n = n + "'"
        return n
    def ex(s, e, want=None, prec=0):
        """prec: 0 top, 65 add, 70 mul, 75 unary, 100 atom"""
        k = e[0]
        def P(txt, p): return "(" + txt + ")" if p < prec else txt
        if k == "num":
            t = want if want in ("f64", "i32", "usize") else ("f64" if re.search(r"[.eE]", e[1]) else "i32")
            if re.search(r"[.eE]", e[1]): t = "f64"
            elif t == "f64": t = "i32"
            return s.num(e[1], t)
        if k == "chr" or k == "str": return e[1]
        if k == "id":
            if e[1] in ("true", "false"): return e[1]
            return s.ident(e[1])
        if k == "par": return s.ex(e[1], want, prec)
        if k == "neg": return P("-" + s.ex(e[1], want, 75), 75)
        if k == "not": return P("!" + s.ex(e[1], want, 100), 40)
        if k == "as":
            a = s.ty(e[1])
            if e[2] == "f64":
                if a == "f64": return s.ex(e[1], "f64", prec)
                return P("ofI32 " + s.ex(e[1], "i32", 100), 90)
            if e[2] == "i32": # only usize -> i32
                return "(" + s.ex(e[1], "usize", 0) + " : Int)"
        if k == "bin":
            o = e[1]
            if o in ("&&", "||"):
                pr = {"&&": 35, "||": 30}[o]
                return P(s.ex(e[2], None, pr) + f" {o} " + s.ex(e[3], None, pr + 1), pr)
            if o in ("+", "-"): return P(s.ex(e[2], want, 65) + f" {o} " + s.ex(e[3], want, 66), 65)
            if o in ("*", "/"): return P(s.ex(e[2], want, 70) + f" {o} " + s.ex(e[3], want, 71), 70)
            t = s.ty(e[2]); t2 = s.ty(e[3])
            isf = "f64" in (t, t2)
            if isf: o2 = {"<": "<.", ">": ">.", "<=": "<=.", ">=": ">=.", "==": "==.", "!=": "!=."}[o]
            else: o2 = o
            if not isf and o in ("<", ">", "<=", ">="):
                return P(f"decide ({s.ex(e[2])} {o2} {s.ex(e[3])})", 90)
            return P(s.ex(e[2], None, 51) + f" {o2} " + s.ex(e[3], None, 51), 50)
        if k == "meth":
            m, a = e[2], e[3]
            nm = {"powi": "powi", "powf": "powf", "abs": "fabs", "sqrt": "fsqrt", "ln": "fln", "exp": "fexp"}[m]
            r = nm + " " + s.ex(e[1], "f64", 100)
            if a: r += " " + s.ex(a[0], "i32" if m == "powi" else "f64", 100)
            return P(r, 90)
        if k == "call":
            n = e[1][1]
            if not e[2]: return s.ident(n)
            if n == "pair_properties":  # function pointers: plain functions are lifted to Option
                a = []
                for i, x in enumerate(e[2]):
                    t = s.ex(x, None, 100)
                    if 3 <= i <= 8 and t not in PARTIAL: t = f"({'liftR' if i == 3 else 'liftP'} {t})"
                    a.append(t)
                return P("pair_properties " + " ".join(a), 90)
            return P(s.ident(n) + " " + " ".join(s.ex(x, None, 100) for x in e[2]), 90)
        if k == "tup": return "(" + ", ".join(s.ex(x) for x in e[1]) + ")"
        if k == "arr": return "[" + ", ".join(s.ex(x) for x in e[1]) + "]"
        if k == "idx":
            t = s.ty(e[1]); el = t[1:-1] if t.startswith("[") else "?"
            f = {"f64": "nthF", "i32": "nthI"}.get(el, "nthL")
            return P(f"{f} {s.ex(e[1], None, 100)} {s.ex(e[2], 'usize', 100)}", 90)
        if k == "field":
            t = s.ty(e[1]); b = s.ex(e[1], None, 100)
            if t == "para": return b + "." + e[2]
            return b + {"0": ".1", "1": ".2.1", "2": ".2.2"}[e[2]]
        if k == "struct":
            return "{ " + ", ".join(f"{f} := {s.ex(x)}" for f, x in e[2].items()) + " }"
        if k == "if": # expression if
            return P("if " + s.ex(e[1]) + " then " + s.body(e[2], "val") + " else " + s.body(e[3], "val"), 0)
        raise SystemExit(f"ex? {e}")
    # ---- analysis
    def assigned(s, st, loc=frozenset()):
        r = []
        loc = set(loc)
        for x in st:
            if x[0] == "let":
                for n in (x[1] if isinstance(x[1], tuple) else (x[1],)): loc.add(n)
            elif x[0] == "assign":
                if x[1][1] not in loc and x[1][1] not in r: r.append(x[1][1])
            else:
                for b in s.blocks(x):
                    for n in s.assigned(b, loc):
                        if n not in r: r.append(n)
        return r
    def blocks(s, x):
        if x[0] == "expr":
            e = x[1]
            if e[0] == "if": return [e[2], e[3]]
            if e[0] == "match": return [b for _, b in e[2]]
            return []
        if x[0] in ("while",): return [x[2]]
        if x[0] == "for": return [x[3]]
        return []
    def uses(s, e):
        if e is None: return set()
        if isinstance(e, tuple):
            if e and e[0] == "id": return {e[1]}
            r = set()
            for y in e: r |= s.uses(y)
            return r
        if isinstance(e, (list,)):
            r = set()
            for y in e: r |= s.uses(y)
            return r
        if isinstance(e, dict): return s.uses(list(e.values()))
        return set()
    def live(s, st, out):
        L = set(out)
        for x in reversed(st):
            if x[0] == "let":
                ns = x[1] if isinstance(x[1], tuple) else (x[1],)
                L -= set(ns); L |= s.uses(x[3])
            elif x[0] == "const": L -= {x[1]}
            elif x[0] == "assign":
                L -= {x[1][1]}; L |= s.uses(x[2])
            elif x[0] == "return": L = s.uses(x[1])
            elif x[0] == "expr":
                e = x[1]
                if e[0] == "if": L = s.uses(e[1]) | s.live(e[2], L) | s.live(e[3], L)
                elif e[0] == "match":
                    N = s.uses(e[1])
                    for _, b in e[2]: N |= s.live(b, L)
                    L = N
                else: L |= s.uses(e)
            elif x[0] == "for": L |= s.uses(x[2]) | s.live(x[3], L) 
            else: L |= s.uses(x)
        return L
    def falls(s, st):
        """can control fall through to the statement after?"""
        for x in st:
            if x[0] == "return": return False
            if x[0] == "expr":
                e = x[1]
                if e[0] == "if" and not s.falls(e[2]) and e[3] and not s.falls(e[3]): return False
                if e[0] == "match" and all(not s.falls(b) for _, b in e[2]): return False
        return True
    def returns(s, st):
        for x in st:
            if x[0] == "return": return True
            if any(s.returns(b) for b in s.blocks(x)): return True
        return False
    def unit(s, st): # block is a bare value block?
        return bool(st) and st[-1][0] == "expr" and not st[-1][2] and st[-1][1][0] not in ("if", "match")
    # ---- statements.  mode: "val" value of block / return is the result
    #                         ("vars", V): fallthrough yields tuple of V
    #                         "opt": return e -> some e, fallthrough -> none
    def ret(s, e, mode, ind):
        v = s.ex(e, s.rt)
        if mode == "opt": return "some " + paren(v)
        if mode == "api" and not (e[0] == "call" and e[1][1] == "pair_properties"): return "some " + paren(v)
        if v.startswith("-"): v = "(" + v + ")"  # a line must not start with a binary minus
        return v
    def tupV(s, V): return s.ident(V[0]) if len(V) == 1 else "(" + ", ".join(map(s.ident, V)) + ")"
    def body(s, st, mode, ind="  "):
        nl = "\n" + ind
        if not st:
            if mode == "opt": return "none"
            if isinstance(mode, tuple) and mode[0] == "cont": return "rest " + " ".join(map(s.ident, mode[1]))
            if isinstance(mode, tuple): return s.tupV(mode[1])
            raise SystemExit(f"{s.fname}: empty block in value position")
        x, R = st[0], st[1:]
        k = x[0]
        if k == "const":
            s.lift(x[1], x[2], x[3], x[4], x[5]); return s.body(R, mode, ind)
        if k == "let":
            pat, t, e = x[1], x[2], x[3]
            if e is None:
                if t: s.types[pat] = t
                return s.body(R, mode, ind)
            if e[0] == "arr":
                s.lift(pat, t, e, None, None); return s.body(R, mode, ind)
            tt = t or s.ty(e)
            if isinstance(pat, tuple):
                rt = s.ty(e)
                for n, q in zip(pat, split(rt[1:-1])): s.types[n] = q
                txt = "let (" + ", ".join(map(s.ident, pat)) + ") := " + s.ex(e)
            else:
                # skip initialisers that are never read
                val = s.ex(e, tt)
                s.types[pat] = tt
                dead = pat not in s.live(R, set())
                if dead: return s.body(R, mode, ind)
                if tt not in ("?",) : txt = f"let {s.ident(pat)} : {lty(tt)} := {val}"
                else: txt = f"let {s.ident(pat)} := {val}"
            return txt + nl + s.body(R, mode, ind)
        if k == "assign":
            v = x[1][1]
            val = s.ex(x[2], s.types.get(v))
            if not R and isinstance(mode, tuple) and mode[0] == "vars" and mode[1] == [v]: return val
            if v not in s.live(R, set(mode[1]) if isinstance(mode, tuple) else set()) :
                return s.body(R, mode, ind)
            return f"let {s.ident(v)} := {val}" + nl + s.body(R, mode, ind)
        if k == "return": return s.ret(x[1], mode, ind)
        if k == "for":
            V = [v for v in s.assigned(x[3])]
            after = s.live(R, set(mode[1]) if isinstance(mode, tuple) else set())
            V = [v for v in V if v in after or v in s.live(x[3], after)]
            if not V: raise SystemExit(f"{s.fname}: loop without effect")
            tv = s.tupV(V)
            s.types[x[1]] = "usize"
            if x[2][0] == "range":
                lo, hi = s.ex(x[2][1], "usize"), s.ex(x[2][2], "usize")
                n = int(hi) - int(lo) + (1 if x[2][3] else 0)
                lst = f"(List.range' {lo} {n})"
            else:
                lst = s.ex(x[2], None, 100); s.types[x[1]] = s.ty(x[2])[1:-1]
            b = s.body(x[3], ("vars", V), ind + "    ")
            pat = tv if len(V) == 1 else "⟨" + tv[1:-1] + "⟩"
            return (f"let {tv} := {lst}.foldl (fun {tv} {s.ident(x[1])} =>{nl}    {b}) {tv}" + nl + s.body(R, mode, ind))
        if k == "expr":
            e = x[1]
            if e[0] == "match": return s.match(e, R, mode, ind, x[2])
            if e[0] == "if": return s.ifst(e, R, mode, ind)
            if R: return s.body(R, mode, ind)  # effect-free expression statement
            return s.ret(e, mode, ind)
        raise SystemExit(f"{s.fname}: stmt {k}")
    def branch(s, conds, blocks, R, mode, ind):
        """if conds[0] then blocks[0] else ... else blocks[-1]; then R"""
        nl = "\n" + ind
        inl = False
        def chain(f, ind=ind):
            """f(block, indentation) -> text"""
            nl = "\n" + ind
            t = ""
            for c, b in zip(conds, blocks):
                if t: t += nl + "else "
                t += f"if {c} then{nl}  {f(b, ind + '  ')}"
            b = blocks[-1]
            if inl: return t + nl + "else" + nl + f(b, ind)
            if len(b) == 1 and b[0][0] == "expr" and b[0][1][0] in ("if", "match"):
                r = f(b, ind)
                if r.startswith("if "): return t + nl + "else " + r
            return t + nl + "else" + nl + "  " + f(b, ind + "  ")
        saved = dict(s.types)
        if not R and not (isinstance(mode, tuple) and mode[0] == "vars"):
            return chain(lambda b, i: s.body(b, mode, i))
        if not R and isinstance(mode, tuple) and mode[0] == "vars" and not any(s.returns(b) for b in blocks):
            return chain(lambda b, i: s.body(b, mode, i))
        out = set(mode[1]) if isinstance(mode, tuple) else set()
        L = s.live(R, out)
        V = []
        for b in blocks:
            for v in s.assigned(b):
                if v not in V and v in L: V.append(v)
        if not any(s.returns(b) for b in blocks):
            if not V:
                return s.body(R, mode, ind)
            f = chain(lambda b, i: s.body(b, ("vars", V), i), ind + "  ")
            return f"let {s.tupV(V)} :={nl}  {f}" + nl + s.body(R, mode, ind)
        nf = [b for b in blocks if s.falls(b)]
        if len(nf) == 0: return chain(lambda b, i: s.body(b, mode, i))
        if len(nf) == 1:
            inl = nf[0] is blocks[-1]
            return chain(lambda b, i: s.body(b + R if b is nf[0] else b, mode, i))
        if len(R) == 1 and R[0][0] in ("expr", "return") and R[0][1][0] == "id" and not isinstance(mode, tuple):
            return chain(lambda b, i: s.body(b + R if s.falls(b) else b, mode, i))
        if V and mode == "val":
            r = s.body(R, mode, ind + "  ")
            args = " ".join(f"({s.ident(v)} : {lty(s.types[v])})" for v in V)
            return f"let rest := fun {args} =>{nl}  {r}{nl}" + chain(lambda b, i: s.body(b, ("cont", V), i))
        if V or (isinstance(mode, tuple) and mode[0] == "vars"): raise SystemExit(f"{s.fname}: join with live {V}")
        f = chain(lambda b, i: s.body(b, "opt", i), ind + "  ")
        if isinstance(mode, tuple): raise SystemExit(f"{s.fname}: nested join")
        if mode == "opt":
            return f"Option.orElse ({f}) fun _ =>" + nl + s.body(R, mode, ind)
        return f"Option.getD ({f}) <|" + nl + s.body(R, mode, ind)
    def ifst(s, e, R, mode, ind):
        return s.branch([s.ex(e[1])], [e[2], e[3]], R, mode, ind)
    def match(s, e, R, mode, ind, semi):
        sc = s.ex(e[1], None, 51); conds, blocks = [], []
        ty = s.ty(e[1])
        for pats, b in e[2]:
            if pats == [("id", "_")]:
                if b and b[0] == ("expr", ("tup", []), False): b = []
                blocks.append(b); break
            if ty == "PAIRS":
                conds.append(" || ".join(f"{sc} == {s.ident(p[1])}" for p in pats))
            else:
                conds.append(" || ".join(f"{sc} == {s.ex(p, ty)}" for p in pats))
            blocks.append(b)
        else:
            conds.pop()  # exhaustive enum match: last arm is the else branch
        return s.branch(conds, blocks, R, mode, ind)
    def lift(s, n, t, e, l, l2):
        """local constant array -> top level definition"""
        full = f"{s.fname}_{n}"
        s.types[n] = t; s.ren[n] = full
        s.pre.append(s.g.constdef(full, t, e, s.rel, l, l2, s))

class Gen:
    def __init__(s, src):
        s.src = src; s.consts = {}; s.frets = {}; s.files = {}
    def load(s, rel):
        toks = lex(open(os.path.join(s.src, rel), encoding="utf-8").read())
        its = P(toks).items(); s.files[rel] = its
        for it in its:
            if it[0] == "const": s.consts.setdefault(it[1], it[2])
            else: s.frets[it[1]] = it[3]
    def constdef(s, name, t, e, rel, l, l2, em):
        t2 = lty(t)
        cite = f"/-- `src/{rel}`" + (f":{l}-{l2}" if l and l2 != l else f":{l}" if l else "") + " -/\n"
        if e[0] == "arr":
            el = t[1:-1]
            def item(x):
                x2 = x
                if el.startswith("("):
                    ts = split(el[1:-1])
                    return "(" + ", ".join(em.ex(y, q) for y, q in zip(x2[1], ts)) + ")"
                if el.startswith("["): return em.ex(x)
                return em.ex(x, el)
            rows = [item(x) for x in e[1]]
            if len(rows) > 4: body = "\n  [ " + ",\n    ".join(rows) + " ]"
            else: body = " [" + ", ".join(rows) + "]"
            return f"{cite}def {name} : {t2} :={body}\n"
        return f"{cite}def {name} : {t2} := {em.ex(e, t)}\n"
    def emit(s, rel, ren, skip=(), only=None, api=None):
        defs = {}
        for it in s.files[rel]:
            nm = it[1]
            if nm in skip: continue
            defs[nm] = (it, Em(s, "", ren, rel).uses(it[3] if it[0] == "const" else it[4]))
        order, seen = [], set()
        def visit(n):
            if n in seen: return
            seen.add(n)
            for d in defs:
                if d in defs[n][1]: visit(d)
            order.append(defs[n][0])
        for n in defs: visit(n)
        out = []
        for it in order:
            if it[0] == "const":
                em = Em(s, "", ren, rel)
                out.append(s.constdef(ren.get(it[1], it[1]), it[2], it[3], rel, it[4], it[5], em))
            else:
                _, n, ps, rt, b, l, l2 = it
                if n in skip or (only and n not in only): continue
                em = Em(s, n, ren, rel); em.rt = rt
                for pn, t in ps: em.types[pn] = t; em.ren.pop(pn, None)
                body = em.body(b, "api" if api else "val")
                args = "".join(f" ({em.ident(pn)} : {lty(t)})" for pn, t in ps)
                out += em.pre
                out.append(f"/-- `src/{rel}:{l}-{l2}` {n} -/\ndef {api + '.' if api else ''}{n}{args} : {'Option F' if api else lty(rt)} :=\n  {body}\n")
        return "\n".join(out)

HEAD = """/-
Generated by tools/rs2lean.py from the Rust sources cited below.
Number type `F` is abstract; see Verif/Model/Num.lean for the conventions.
-/
%s
set_option linter.unusedVariables false

namespace If97
open Flt
variable {F : Type} [Add F] [Sub F] [Mul F] [Div F] [Neg F] [OfScientific F] [Flt F]

%s
end If97
"""

def main():
    src, out = sys.argv[1], sys.argv[2]
    g = Gen(src)
    order = ["common/constant.rs", "common/propertry_id.rs", "algo/polynomial.rs", "algo/polynomial_steps.rs",
      "algo/root.rs", "common/boundaries.rs", "common/transport_further.rs", "common/propertry_pairs.rs",
      "r1/region1_gfe.rs", "r1/region1_pT.rs", "r1/region1_pT_ext.rs", "r1/region1_T_phps.rs", "r1/region1_p_hs.rs", "r1/region1_pair_ext.rs", "r1/region1.rs",
      "r2/region2_gfe.rs", "r2/region2_pT.rs", "r2/region2_pT_ext.rs", "r2/region2_T_ph.rs", "r2/region2_T_ps.rs", "r2/region2_p_hs.rs", "r2/region2_pair_ext.rs", "r2/region2.rs",
      "r3/region3_hfe.rs", "r3/region3_Td.rs", "r3/region3_Td_ext.rs", "r3/region3_Tv_phps.rs", "r3/region3_p_hs.rs", "r3/region3_v_pT.rs", "r3/region3_v_subregion_pT.rs", "r3/region3_pair_ext.rs", "r3/region3.rs",
      "r4/region4_sat_pT.rs", "r4/region4_pTx.rs", "r4/region4_pair_ext.rs", "r4/region4_T_hs.rs", "r4/region4.rs",
      "r5/region5_gfe.rs", "r5/region5_pT.rs", "r5/region5_pT_ext.rs", "r5/region5_pair_ext.rs", "r5/region5_ph_ps_hs.rs", "r5/region5.rs",
      "common/region.rs"]
    for r in order: g.load(r)
    g.consts["n"] = "[f64]"
    ren = {d: {"IJn": d + "_IJn"} for d in ("r1", "r2", "r3", "r5")}
    ren["r4"] = {"n": "r4_n"}
    ren["r5"].update({"no": "r5_no", "Jo": "r5_Jo"})
    ren["r2"].update({"n0": "r2_n0", "J0": "r2_J0"})
    ren["common"] = {}; ren["algo"] = {}
    def mod(name, imports, parts):
        txt = []
        for rel, kw in parts:
            txt.append(f"/-! ### src/{rel} -/\n\n" + g.emit(rel, ren[rel.split("/")[0]], **kw))
        os.makedirs(out, exist_ok=True)
        with open(os.path.join(out, name + ".lean"), "w") as f:
            f.write(HEAD % ("\n".join("import Verif.Model." + i for i in imports), "\n".join(txt)))
    mod("Const", ["Num"], [("common/constant.rs", {}), ("common/propertry_id.rs", {})])
    mod("Transport", ["Poly", "Const"], [("common/transport_further.rs", {})])
    mod("Pairs", ["Transport", "Para"], [("common/propertry_pairs.rs", dict(skip=("pair_properties",)))])
    mod("R1", ["Poly", "Const"], [("r1/region1_gfe.rs", {}), ("r1/region1_pT.rs", {}), ("r1/region1_pT_ext.rs", {}), ("r1/region1_T_phps.rs", {}), ("r1/region1_p_hs.rs", {})])
    mod("R2", ["Poly", "Const"], [("r2/region2_gfe.rs", {}), ("r2/region2_pT.rs", {}), ("r2/region2_pT_ext.rs", {}), ("r2/region2_T_ph.rs", {}), ("r2/region2_T_ps.rs", {}), ("r2/region2_p_hs.rs", {})])
    mod("R5", ["Poly", "Const", "Root"], [("r5/region5_gfe.rs", {}), ("r5/region5_pT.rs", {}), ("r5/region5_pT_ext.rs", {}), ("r5/region5_ph_ps_hs.rs", {})])
    mod("Sat", ["Poly", "Const"], [("r4/region4_sat_pT.rs", {})])
    mod("Bound", ["R1", "R2"], [("common/boundaries.rs", {})])
    mod("R3", ["Bound", "Sat"], [("r3/region3_hfe.rs", {}), ("r3/region3_Td.rs", {}), ("r3/region3_Td_ext.rs", {}), ("r3/region3_Tv_phps.rs", {}), ("r3/region3_p_hs.rs", {})])
    mod("R3vSub", ["Sat", "Para"], [("r3/region3_v_subregion_pT.rs", {})])
    mod("R3v", ["R3vSub"], [("r3/region3_v_pT.rs", {})])
    mod("RegPair1", ["R1", "Sat", "Root", "Pairs"], [("r1/region1_pair_ext.rs", dict(skip=("pv2T_reg1",)))])
    mod("Reg1", ["RegPair1", "PairLoops"], [("r1/region1.rs", {})])
    mod("RegPair2", ["R2", "Sat", "Root", "Bound"], [("r2/region2_pair_ext.rs", dict(skip=("Tv2p_reg2", "Th2p_reg2", "pv2T_reg2")))])
    mod("Reg2", ["RegPair2", "Pairs", "PairLoops"], [("r2/region2.rs", dict(skip=("tv_reg2", "th_reg2")))])
    mod("Reg3", ["R3", "R3v", "Root", "Pairs"], [("r3/region3_pair_ext.rs", {}), ("r3/region3.rs", {})])
    mod("RegPair5", ["R5"], [("r5/region5_pair_ext.rs", dict(skip=("Tv2p_reg5",)))])
    mod("Reg5", ["RegPair5", "Pairs", "PairLoops"], [("r5/region5.rs", dict(skip=("tv_reg5",)))])
    mod("Reg4", ["Reg1", "Reg2", "Reg3"], [("r4/region4_pTx.rs", {}), ("r4/region4_pair_ext.rs", {}), ("r4/region4_T_hs.rs", dict(skip=("hs2T_reg4",))), ("r4/region4.rs", dict(skip=("bisection_reg4", "hs_reg4", "hx_reg4", "sx_reg4")))])
    mod("Region", ["Reg4", "Reg5"], [("common/region.rs", dict(skip=("th_sub_region",)))])
    g.frets["o_id_reg_info"] = "(i32,i32)"
    parts = []
    for rel, ns, skip in [("rust_if97.rs", "Rust", ("o_id_reg_info",)), ("cdecl_c_if97.rs", "Cdecl", ()), ("stdcall_c_if97.rs", "Stdcall", ()), ("python_if97.rs", "Python", ("seuif97",))]:
        ren[rel] = {}
        g.load(rel)
        parts.append((rel, dict(api=ns, skip=skip)))
    mod("Api", ["PairProps"], parts)
main()
