#!/usr/bin/env python3
"""Bernstein certificates: write a polynomial (rational coefficients, ascending) that is
positive on [a,b] as a positive combination of (x-a)^i (b-x)^(n-i).

usage: from bernstein import cert; cert([c0,c1,...], a, b) -> list of coefficients or None"""
from fractions import Fraction as Q
from math import comb

def polymul(p, q):
    r = [Q(0)] * (len(p) + len(q) - 1)
    for i, a in enumerate(p):
        for j, b in enumerate(q):
            r[i + j] += a * b
    return r

def cert(c, a, b, deg=None):
    a, b = Q(a), Q(b)
    c = [Q(x) for x in c]
    n = deg or len(c) - 1
    c = c + [Q(0)] * (n + 1 - len(c))
    # x = a + (b-a) t
    w = b - a
    out = [Q(0)] * (n + 1)
    p = [Q(1)]
    for k in range(n + 1):
        for i, v in enumerate(p):
            out[i] += c[k] * v
        p = polymul(p, [a, w])
    # power in t -> Bernstein
    bern = [sum(Q(comb(i, k), comb(n, k)) * out[k] for k in range(i + 1)) for i in range(n + 1)]
    return [bern[i] * comb(n, i) / w**n for i in range(n + 1)], bern

def lean_q(x):
    x = Q(x)
    return f"({x.numerator}/{x.denominator})" if x.denominator != 1 else f"({x.numerator})"

def lean_rhs(co, a, b, x="x"):
    n = len(co) - 1
    a, b = lean_q(a), lean_q(b)
    return " + ".join(f"{lean_q(v)}*({x}-{a})^{i}*({b}-{x})^{n-i}" for i, v in enumerate(co))
