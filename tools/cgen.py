#!/usr/bin/env python3
"""Translate the generated arithmetic of /repo (straight-line C++ assignments) into Lean terms.
Used by gen_*.py; the Lean modules it writes are committed."""
import re
TOK=re.compile(r'\s*(ecl::powf|powf|[A-Za-z_][A-Za-z_0-9.]*(?:\.at<\d+>)?|\d+\.\d*[Ff]?|\d+[fF]?|[-+*/(),])')
def tokens(s):
    out=[];i=0
    s=s.strip()
    while i<len(s):
        m=TOK.match(s,i)
        if not m: raise SyntaxError(s[i:i+40])
        out.append(m.group(1)); i=m.end()
        while i<len(s) and s[i].isspace(): i+=1
    return out
def num(t):
    t=t.rstrip('Ff')
    if '.' in t:
        from fractions import Fraction
        f=Fraction(t)
        return str(f.numerator) if f.denominator==1 else '(%d / %d)'%(f.numerator,f.denominator)
    return t
class Tr:
    """ident: function mapping identifier -> Lean text; call: mapping (name,args list of Lean text)->Lean text"""
    def __init__(s,ident,call): s.ident=ident; s.call=call
    def tr(s,e):
        s.t=tokens(e); s.i=0
        r=s.sum()
        if s.i!=len(s.t): raise SyntaxError((e,s.t[s.i:]))
        return r
    def peek(s): return s.t[s.i] if s.i<len(s.t) else None
    def nxt(s): s.i+=1; return s.t[s.i-1]
    def sum(s):
        r=s.prod()
        while s.peek() in('+','-'):
            o=s.nxt(); r=r+' '+o+' '+s.prod()
        return r
    def prod(s):
        r=s.unary()
        while s.peek() in('*','/'):
            o=s.nxt(); r=r+' '+o+' '+s.unary()
        return r
    def unary(s):
        if s.peek()=='-':
            s.nxt(); return '-'+s.unary()
        return s.atom()
    def atom(s):
        t=s.nxt()
        if t=='(':
            r=s.sum(); assert s.nxt()==')'; return '('+r+')'
        if t[0].isdigit(): return num(t)
        if s.peek()=='(':
            s.nxt(); a=[]
            if s.peek()!=')':
                a.append(s.sum())
                while s.peek()==',': s.nxt(); a.append(s.sum())
            assert s.nxt()==')'
            if t in('ecl::powf','powf'):
                base=a[0]
                n=a[1]
                if not re.fullmatch(r'[A-Za-z_0-9.]+',base): base='('+base+')'
                if n.startswith('-'): return '(1 / %s ^ %s)'%(base,n[1:]) if n!='-1' else '(1 / %s)'%base
                return '%s ^ %s'%(base,n)
            return s.call(t,a)
        return s.ident(t)
