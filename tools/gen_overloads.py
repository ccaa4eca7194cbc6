#!/usr/bin/env python3
"""Writes lean/Verif/Model/OverloadTable.lean from the function templates of the
native headers in /repo: one Lean record per overload, with the file and lines it
is read from. Anything the parser does not understand is an error."""
import glob, os, re, sys

D = '/repo/include/experimental/__p1673_bits/'
# order in which <experimental/linalg> includes the headers (linalg:62-82;
# blas1_vector_norm2.hpp:46 includes blas1_vector_sum_of_squares.hpp itself)
HEADERS = """blas1_givens blas1_linalg_swap blas1_matrix_frob_norm blas1_matrix_inf_norm
blas1_matrix_one_norm blas1_scale blas1_linalg_copy blas1_linalg_add blas1_dot
blas1_vector_sum_of_squares blas1_vector_norm2 blas1_vector_abs_sum blas1_vector_idx_abs_max
blas2_matrix_vector_product blas2_matrix_vector_solve blas2_matrix_rank_1_update
blas2_matrix_rank_2_update blas3_matrix_product blas3_matrix_rank_k_update
blas3_matrix_rank_2k_update blas3_triangular_matrix_matrix_solve""".split()
INTERNAL = re.compile(r'_default_impl|deducer|abs1|abssq|trsm|trsv|(copy|add|swap|scale)_rank_\d$')

def strip(path):
    keep = []; skip = 0
    for l in open(path).read().split('\n'):
        t = l.strip()
        if skip:
            if re.match(r'#\s*if', t): skip += 1
            elif re.match(r'#\s*endif', t): skip -= 1
            keep.append(''); continue
        if re.match(r'#\s*if 0', t): skip = 1; keep.append(''); continue
        if t.startswith('#'): keep.append(''); continue
        keep.append(re.sub(r'//.*', '', l))
    s = '\n'.join(keep)
    return re.sub(r'/\*.*?\*/', lambda m: '\n' * m.group(0).count('\n'), s, flags=re.S)

def close(s, k, o, c):
    d = 1
    while d:
        if s[k] == o: d += 1
        if s[k] == c: d -= 1
        k += 1
    return k

def split(x, sep=','):
    res = []; d = 0; c = ''; i = 0
    while i < len(x):
        ch = x[i]
        if ch in '<({': d += 1
        if ch in ')}' or (ch == '>' and x[i-1] != '-'): d -= 1
        if d == 0 and x.startswith(sep, i):
            res.append(' '.join(c.split())); c = ''; i += len(sep); continue
        c += ch; i += 1
    if c.strip(): res.append(' '.join(c.split()))
    return res

def camel(n):
    p = n.split('_'); return p[0] + ''.join(q.capitalize() for q in p[1:])

overloads = []
for hi, h in enumerate(HEADERS):
    s = strip(D + h + '.hpp')
    for m in re.finditer(r'\b(template\s*<|MDSPAN_TEMPLATE_REQUIRES\s*\()', s):
        j = m.end()
        k = close(s, j, '<', '>') if m.group(1).startswith('template') else close(s, j, '(', ')')
        tp = split(s[j:k-1]); rest = s[k:]
        mm = re.match(r'\s*((?:typename\s+|inline\s+|constexpr\s+|static\s+)*[\w:<>,\s\*&]*?)\b(\w+)\s*\(', rest)
        if not mm or re.match(r'\s*(struct|class|using|inline constexpr)\b', rest): continue
        name = mm.group(2)
        if INTERNAL.search(name) or name == 'requires': continue
        r = close(rest, mm.end(), '(', ')')
        params = split(rest[mm.end():r-1])
        b = rest.index('{', r); tail = ' '.join(rest[r:b].split())
        e = close(rest, b + 1, '{', '}')
        body = rest[b:e]
        overloads.append(dict(h=h, hi=hi, name=name, tp=tp, params=params, tail=tail, body=body,
            l0=s[:m.start()].count('\n') + 1, l1=s[:k+r].count('\n') + 1, l2=s[:k+e].count('\n') + 1))

public = {o['name'] for o in overloads}
UNNAMED = {'Triangle': 't', 'DiagonalStorage': 'd', 'Side': 's'}

def convert(o):
    tparams = [re.sub(r'=.*', '', t).split()[-1] for t in o['tp'] if not t.startswith('(')]
    var = {t: i for i, t in enumerate(tparams)}
    used = {}
    def v(t):
        if t not in var: raise SystemExit(f'{o["h"]}:{o["l0"]}: {t} is not a template parameter')
        return used.setdefault(t, len(used))
    names = []; pats = []; ext = {}; lay = {}
    for i, p in enumerate(o['params']):
        m = re.fullmatch(r'P1673_MATRIX_PARAMETER\( (\w+) \)', p)
        if m:
            names.append(m.group(1)); pats.append('.span (.rank 2)'); lay['Layout_'+m.group(1)] = i; continue
        m = re.fullmatch(r'mdspan<\s*(\w+), (extents<.*>|\w+) ?, (\w+), (\w+)\s*> (\w+)', p)
        if m:
            names.append(m.group(5)); lay[m.group(3)] = i; e = m.group(2)
            if e.startswith('extents<'):
                a = split(e[8:-1])[1:]
                if len(a) == 1 and a[0].endswith('...'):
                    pats.append('.span .pack'); ext[a[0].replace('...', '').strip()] = i
                else: pats.append(f'.span (.rank {len(a)})')
            else: pats.append('.span .any'); ext[e] = i
            continue
        p0 = p
        if '&' not in p: p = re.sub(r'^const ', '', p)
        m = re.fullmatch(r'(?:linalg::)?impl::inline_exec_t&&(?: (\w+))?', p)
        if m: names.append('exec'); pats.append('.inlineRef'); continue
        m = re.fullmatch(r'ExecutionPolicy&&(?: (\w+))?', p)
        if m: names.append('exec'); pats.append(f'.fwd {v("ExecutionPolicy")}'); continue
        m = re.fullmatch(r'sum_of_squares_result<(\w+)> (\w+)', p)
        if m: names.append(m.group(2)); pats.append(f'.ssq {v(m.group(1))}'); continue
        m = re.fullmatch(r'std::complex<(\w+)> (\w+)', p)
        if m: names.append(m.group(2)); pats.append(f'.cpx {v(m.group(1))}'); continue
        m = re.fullmatch(r'const std::complex<(\w+)>& (\w+)', p)
        if m: names.append(m.group(2)); pats.append(f'.cpxCRef {v(m.group(1))}'); continue
        m = re.fullmatch(r'std::complex<(\w+)>& (\w+)', p)
        if m: names.append(m.group(2)); pats.append(f'.cpxRef {v(m.group(1))}'); continue
        m = re.fullmatch(r'(\w+)& (\w+)', p)
        if m: names.append(m.group(2)); pats.append(f'.ref {v(m.group(1))}'); continue
        m = re.fullmatch(r'(\w+)(?: (\w+))?', p)
        if m:
            names.append(m.group(2) or UNNAMED[m.group(1)]); pats.append(f'.val {v(m.group(1))}'); continue
        raise SystemExit(f'{o["h"]}:{o["l0"]}: parameter {p0}')
    cons = []
    def atoms(t):
        t = t.strip()
        while t.startswith('(') and close(t, 1, '(', ')') == len(t): t = t[1:-1].strip()
        parts = split(t, '&&')
        if len(parts) > 1:
            for q in parts: atoms(q)
            return
        if re.fullmatch(r'std::is_same_v<Triangle, lower_triangle_t> \|\| std::is_same_v<Triangle, upper_triangle_t>', t):
            cons.append(f'.triangle {v("Triangle")}'); return
        m = re.fullmatch(r'_MDSPAN_TRAIT\(std::is_floating_point, (\w+)\)', t)
        if m: cons.append(f'.floating {v(m.group(1))}'); return
        m = re.fullmatch(r'sizeof...\((\w+)\) == sizeof...\((\w+)\)', t)
        if m: cons.append(f'.sameRank {ext[m.group(1)]} {ext[m.group(2)]}'); return
        m = re.fullmatch(r'sizeof...\((\w+)\) <= (\d+)', t)
        if m: cons.append(f'.rankLe {ext[m.group(1)]} {m.group(2)}'); return
        m = re.fullmatch(r'impl::is_linalg_execution_policy_other_than_inline_v<(\w+)>', t)
        if m: cons.append(f'.policy {v(m.group(1))}'); return
        m = re.fullmatch(r'! impl::is_linalg_execution_policy_other_than_inline_v<(\w+)>', t)
        if m: cons.append(f'.notPolicy {v(m.group(1))}'); return
        m = re.fullmatch(r'! impl::is_mdspan_v<std::remove_cv_t<std::remove_reference_t<(\w+)>>>', t)
        if m: cons.append(f'.notSpan {v(m.group(1))}'); return
        m = re.fullmatch(r'(\w+)::template mapping<(?:\w+|extents<[^<>]*>) ?>::is_always_unique\(\)', t) or \
            re.fullmatch(r'impl::always_unique_mapping_v<(\w+), (?:\w+|extents<[^<>]*>) ?>', t)
        if m: cons.append(f'.unique {lay[m.group(1)]}'); return
        m = re.fullmatch(r'(\w+)::rank\(\) == (\d+)', t)
        if m: cons.append(f'.rank {ext[m.group(1)]} {m.group(2)}'); return
        raise SystemExit(f'{o["h"]}:{o["l0"]}: constraint {t}')
    for t in o['tp']:
        if t.startswith('('): atoms(t)
    t = o['tail']
    if t:
        m = re.fullmatch(r'-> std::enable_if_t<!std::is_same_v<(\w+), impl::inline_exec_t>>', t)
        if m: cons.append(f'.notInline {v(m.group(1))}')
        elif not re.fullmatch(r'-> decltype\(.*deducer\(.*\)\)', t): raise SystemExit(f'{o["h"]}:{o["l0"]}: {t}')
    calls = []
    for m in re.finditer(r'\b(\w+)\s*\(', o['body']):
        if m.group(1) not in public: continue
        if re.search(r'(using|::)\s*$', o['body'][:m.start()]): continue
        k = close(o['body'], m.end(), '(', ')')
        args = split(o['body'][m.end():k-1])
        if args and re.search(r'execpolicy', args[0]): continue   # branch for a backend (C45)
        ex = []
        for a in args:
            a = re.sub(r'^linalg::', '', a)
            if re.fullmatch(r'impl::inline_exec_t(\{\}|\(\))', a): ex.append('.inl')
            elif re.fullmatch(r'impl::default_exec_t(\{\}|\(\))', a): ex.append('.dflt')
            elif a == 'std::forward<impl::inline_exec_t>(exec)': ex.append(f'.move {names.index("exec")}')
            elif re.fullmatch(r'conjugated\(\w+\)', a): ex.append(f'.conj {names.index(a[11:-1])}')
            elif a == 'return_t{}': ex.append('.ret')
            elif a == 'ssq_init': ex.append(f'.ssq {names.index("init")}')
            elif a in names: ex.append(f'.par {names.index(a)}')
            elif a == 'divide': ex.append('.divide')
            else: raise SystemExit(f'{o["h"]}:{o["l0"]}: argument {a}')
        guard = 'none'
        if o['name'] == 'triangular_matrix_matrix_solve' and pats[0] == '.inlineRef':
            guard = f'(some ({names.index("s")}, {"true" if "left" in m.group(1) else "false"}))'
        calls.append(f'⟨{guard}, .{camel(m.group(1))}, [{", ".join(ex)}]⟩')
    return names, pats, cons, calls

RESERVED = {'exec': 'exec', 't': 't'}
algos = []
for o in overloads:
    if o['name'] not in algos: algos.append(o['name'])
allnames = []
conv = []
for o in overloads:
    c = convert(o); conv.append((o, c))
    for n in c[0]:
        if n not in allnames: allnames.append(n)

out = []
w = out.append
w('import Verif.Core.Overloads\n')
w('/-!\nThe overloads of the public algorithms: signatures, constraints and the calls their\nbodies make to overloaded names. Written by `tools/gen_overloads.py` from the native\nheaders; every record cites its lines. Simplifications: see `Core/Overloads.lean`.\n-/\n')
w('namespace StdBLAS.Overloads\n')
w('/-- The algorithms: the overloaded function names of the headers that\ninclude/experimental/linalg:62-82 includes. -/\ninductive Algo')
for a in algos: w(f'  | {camel(a)}')
w('  deriving DecidableEq, Repr\n')
w('/-- The names of the parameters in the headers (unnamed ones: `exec` for the\nexecution policy, `t`, `d`, `s` for the tags). -/\ninductive PName')
w('  | ' + ' | '.join(allnames))
w('  deriving DecidableEq, Repr\n')
w('/-- Signature of one overload. -/\nabbrev Sig := SigOf Algo PName\n')
for a in algos:
    mine = [(o, c) for o, c in conv if o['name'] == a]
    h = mine[0][0]['h']
    w(f'/-- `{a}`: {h}.hpp. -/\ndef {camel(a)}Sigs : List Sig := [')
    for i, (o, (names, pats, cons, calls)) in enumerate(mine):
        w(f'  -- {h}.hpp:{o["l0"]}-{o["l2"]}')
        w(f'  ⟨{o["hi"]}, {o["l0"]}, [{", ".join("."+n for n in names)}],')
        w(f'    [{", ".join(pats)}],')
        w(f'    [{", ".join(cons)}],')
        sep = ',\n      '
        w(f'    [{sep.join(calls)}]⟩' + (',' if i + 1 < len(mine) else ']\n'))
w('/-- The overloads of an algorithm, in the order of the headers. -/\ndef sigs : Algo → List Sig')
for a in algos: w(f'  | .{camel(a)} => {camel(a)}Sigs')
w('\nend StdBLAS.Overloads')
p = os.path.join(os.path.dirname(os.path.abspath(__file__)), '..', 'lean', 'Verif', 'Model', 'OverloadTable.lean')
open(p, 'w').write('\n'.join(out) + '\n')
print(len(overloads), 'overloads,', len(algos), 'algorithms')
