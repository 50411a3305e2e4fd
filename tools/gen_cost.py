#!/usr/bin/env python3
"""Generate lean/Verif/Cost/Model.lean (the counting copy of the model) and
lean/Verif/Cost/Sim.lean (every copy erases to the model's function)."""
import re, os
R = os.path.join(os.path.dirname(__file__), '..', 'lean', 'Verif')
blocks = []
for f in ['Base', 'Static', 'Core', 'Api']:
    t = open(f'{R}/Model/{f}.lean').read()
    t = t[t.index('section Prim' if f == 'Base' else f'section {f}'):]
    if f == 'Base':
        t = '/-- Unsigned subtraction the code relies on not wrapping. -/\ndef usub {α : Type} (a b : Nat) : M α Nat :=\n  if b ≤ a then pure (a - b) else M.ub .wrap\n\n' + t
    # split at blank-line separated column-0 starts
    cur = None
    for line in t.split('\n'):
        if re.match(r'/--', line) or (re.match(r'(def|structure)\b', line) and not (cur and cur[0].startswith('/--') and not any(re.match(r'(def|structure)\b', l) for l in cur))):
            if cur: blocks.append((f, '\n'.join(cur).rstrip()))
            cur = [line]
        elif re.match(r'(section|end|variable|/-!|namespace)', line):
            if cur: blocks.append((f, '\n'.join(cur).rstrip()))
            cur = None
        elif cur is not None:
            cur.append(line)
    if cur: blocks.append((f, '\n'.join(cur).rstrip()))

PRIM1 = {'rdNode', 'wrNode', 'rdSlots', 'wrSlots', 'rdObj', 'wrObj', 'allocCell', 'allocNodeCell',
         'freeSeg', 'freeNode', 'ctor', 'dropObj', 'copyVal'}
WEIGHT = {'rdNode': 'rdNode', 'wrNode': 'wrNode', 'rdSlots': 'rdSlots', 'wrSlots': 'wrSlots', 'rdObj': 'rdObj',
          'wrObj': 'wrObj', 'allocCell': 'alloc', 'allocNodeCell': 'alloc', 'freeSeg': 'free', 'freeNode': 'free',
          'ctor': 'wrObj', 'dropObj': 'wrObj', 'usub': None, 'copyVal': None}
PURE = {'find_index_segment', 'find_first_segment', 'find_end_segment', 'toSize', 'toDiff', 'difference',
        'allRaw', 'copySlots', 'Env.throws', 'Entry.atSegEnd', 'index_of', 'max_size', 'Iter.current', 'Iter.segBegin',
        'Iter.segEnd', 'it_diff', 'it_eq', 'it_ne', 'it_lt', 'it_gt', 'it_le', 'it_ge'}
SKIP = {'read_range', 'write_range', 'std_inplace_merge', 'std_stable_sort', 'merge', 'sort'}

def strip_binders(b):
    "list of (names, type, kind)"
    out = []
    i = 0
    while i < len(b):
        if b[i] in '({[':
            d = 1; j = i + 1
            while d:
                if b[j] in '({[': d += 1
                if b[j] in ')}]': d -= 1
                j += 1
            inner = b[i+1:j-1]
            ns, ty = inner.split(':', 1)
            out.append((ns.split(), ty.strip(), b[i]))
            i = j
        else: i += 1
    return out

model, sim = [], []
usesE = {'allocCell', 'freeSeg', 'allocNodeCell'}
names = []
info = {}
for f, b in blocks:
    m = re.search(r'^(def|structure) (\S+)', b, re.M)
    name = m.group(2)
    if name in PURE or name in SKIP: continue
    c = re.sub(r'\bM α\b', 'C α', b)
    c = re.sub(r'\bM\.(?!onThrow`)', 'C.', c)
    # whether E is an explicit argument
    body = b[m.start():]
    sig = body[len(m.group(0)):]
    # binders up to ':' at depth 0
    d = 0; k = 0
    while True:
        ch = sig[k]
        if ch in '({[': d += 1
        if ch in ')}]': d -= 1
        if ch == ':' and d == 0: break
        if sig.startswith('where', k) and d == 0: break
        k += 1
    binders = strip_binders(sig[:k])
    rest = sig[k+1:]
    ret = rest.split(':=')[0].split('\n  |')[0].strip()
    uses = bool(re.search(r'\bE\b', body[len(m.group(0)):]))
    info[name] = (binders, ret, uses)
    doc = b[:m.start()]
    if name in PRIM1 or name == 'usub':
        args = ' '.join(n for ns, ty, kd in binders if kd == '(' for n in ns)
        hdr = re.sub(r'\bM α\b', 'C α', body.split(':=')[0].rstrip())
        c = doc + hdr + ' :=\n  C.lift %s (SegTree.%s%s %s)' % ('0' if WEIGHT[name] is None else 'Weights.' + WEIGHT[name], name, ' E' if uses else '', args)
    if name == 'memcpy_segment':
        c = c.replace('    wrSlots dst (copySlots s si d di n)', '    C.tick (n * Weights.copy)\n    wrSlots dst (copySlots s si d di n)')
        assert 'C.tick' in c
    model.append(c)
    names.append((name, b))

out = '''/-
  GENERATED by tools/gen_cost.py from Verif/Model: the model's functions, text
  unchanged, over the counting monad `C`.  The machine's primitives (node,
  segment, object accesses and allocator calls) cost what `Weights` says; a
  `memcpy` or `memmove` of n elements costs `n * copy` more.  Comments cite the
  lines of seq.hpp.
-/
import Verif.Cost.Base
set_option autoImplicit false

namespace SegTree.Cost

section
variable {α : Type} [Weights] (E : Env α)

''' + '\n\n'.join(model) + '\n\nend\nend SegTree.Cost\n'
open(f'{R}/Cost/Model.lean', 'w').write(out)

# ---- simulation
# arguments that stay the same in every recursive call (default: `o`)
FIXED = {'find_index_loop': ['p'], 'scan_next': ['p'], 'scan_prev': ['p'], 'move_next_branch': ['e'],
         'update_sizes': ['o', 'sz'], 'alloc_nodes_loop': ['o', 'segment_alloc'], 'erase_range': ['o', 'first'],
         'assign_count_loop': ['o', 'src', 'last'], 'std_find_if': ['p', 'last'], 'std_remove_loop': ['p', 'last'],
         'std_unique_loop': ['p', 'last'], 'std_equal': ['eq', 'last1'], 'std_lex': ['lt', 'last1', 'last2']}
HAND = {'forN', 'purge_node', 'range_loop', 'forward_loop', 'backward_loop', 'emplace_count_loop', 'Src', 'listSrc', 'copySrc',
        'moveSrc'} | PRIM1 | {'usub'}
S = []
import sys
handtext = {}
try:
    ht = open(os.path.join(os.path.dirname(__file__), 'cost_hand.txt')).read()
    for p in re.split(r'^@@', ht, flags=re.M)[1:]:
        n, t = p.split('\n', 1)
        handtext[n.strip()] = t.rstrip()
except FileNotFoundError: pass
for name, b in names:
    if name in handtext:
        if handtext[name]: S.append(handtext[name])
        continue
    if name in PRIM1 or name == 'usub':
        binders, ret, uses = info[name]
        args = ' '.join(n for ns, ty, kd in binders if kd == '(' for n in ns)
        bs = ' '.join('(%s : %s)' % (' '.join(ns), ty) for ns, ty, kd in binders if kd == '(')
        e = ' E' if uses else ''
        S.append(f'instance {name} {bs} : Sim (SegTree.{name}{e} {args} : {ret}) (Cost.{name}{e} {args}) := Sim.lift _ _')
        continue
    if name in HAND: continue
    binders, ret, uses = info[name]
    e = ' E' if uses else ''
    srcs = [ns[0] for ns, ty, kd in binders if ty.startswith('Src')]
    sb, largs, rargs = [], [], []
    for ns, ty, kd in binders:
        if kd == '{': sb.append('{%s : %s}' % (' '.join(ns), ty)); continue
        for n in ns:
            if ty.startswith('Src'):
                sb.append(f'{{{n} : SegTree.{ty}}} {{{n}c : Cost.{ty}}} [SimSrc {n} {n}c]'); largs.append(n); rargs.append(n+'c')
            elif ty.startswith('M α'):
                sb.append(f'{{{n} : {ty}}} {{{n}c : {ty.replace("M α","C α")}}} [Sim {n} {n}c]'); largs.append(n); rargs.append(n+'c')
            else:
                sb.append(f'({n} : {ty})'); largs.append(n); rargs.append(n)
    head = f"instance {name} {' '.join(sb)} : Sim (SegTree.{name}{e} {' '.join(largs)} : {ret}) (Cost.{name}{e} {' '.join(rargs)}) := by"
    if 'partial_fixpoint' in b:
        allargs = [(n, ty) for ns, ty, kd in binders if kd == '(' for n in ns]
        fx = FIXED.get(name, ['o']).copy()
        fl = [largs[i] for i in range(len(allargs)) if allargs[i][0] in fx]
        vl = [x for x in allargs if x[0] not in fx]
        vb = ' '.join(f'({n} : {ty})' for n, ty in vl)
        va = ' '.join(n for n, ty in vl)
        fargs = (' ' + ' '.join(fl)) if fl else ''
        S.append(f'''{head}
  revert {va}
  refine SegTree.{name}.fixpoint_induct{e}{fargs} (fun f => ∀ {vb}, Sim (f {va}) (Cost.{name}{e} {' '.join(rargs)})) (adm{len(vl)} _) ?_
  intro f ih {va}
  unfold Cost.{name}; sim''')
    else:
        S.append(f'{head}\n  unfold SegTree.{name} Cost.{name}; sim')

open(f'{R}/Cost/Sim.lean', 'w').write(open(os.path.join(os.path.dirname(__file__), 'cost_sim_head.txt')).read() + '\n'.join(S) + '\n\nend Sim\nend SegTree\n')

# ---- programs without a counted access
HANDQ = {'forN', 'range_loop', 'forward_loop', 'backward_loop', 'usub', 'Src'}
FIXEDQ = FIXED
def quiet(fname, wname, ro, zero, doc, hand):
    "instances `Quiet ro (Cost.f ...)` for every f all of whose callees are quiet"
    good = set(PURE) | HANDQ | set(hand)
    out = []
    allnames = set()
    for name, b in names:
        earlier = set(allnames); allnames.add(name)
        if name in HANDQ: continue
        if name in hand:
            if hand[name]: out.append(hand[name])
            continue
        binders, ret, uses = info[name]
        e = ' E' if uses else ''
        if name in PRIM1:
            if WEIGHT[name] in zero or (WEIGHT[name] is None and ro == 'false'):
                good.add(name)
                args = ' '.join(n for ns, ty, kd in binders if kd == '(' for n in ns)
                bs = ' '.join('(%s : %s)' % (' '.join(ns), ty) for ns, ty, kd in binders if kd == '(')
                r = ret.replace('M α', 'C α')
                pf = 'lift0 rfl fun h => by cases h' if ro == 'false' else f'lift0 rfl fun _ m => by\n  simp only [SegTree.{name}]; constructor <;> intros <;> (split at * <;> simp_all [M.ub])'
                out.append(f'instance {name} {bs} : Quiet {ro} (Cost.{name}{e} {args} : {r}) := {pf}')
            continue
        body = b[re.search(r'^(def|structure) ', b, re.M).start():]
        words = set(re.findall(r'[A-Za-z_][A-Za-z_0-9]*', body)) - {name}
        callees = words & earlier
        if not callees <= good: continue
        if any(ty.startswith('Src') for ns, ty, kd in binders) or name in ('listSrc', 'copySrc', 'moveSrc'): continue
        good.add(name)
        sb, rargs = [], []
        for ns, ty, kd in binders:
            if kd == '{': sb.append('{%s : %s}' % (' '.join(ns), ty)); continue
            for n in ns:
                if ty.startswith('M α'):
                    sb.append(f'{{{n} : {ty.replace("M α","C α")}}} [Quiet {ro} {n}]'); rargs.append(n)
                else:
                    sb.append(f'({n} : {ty})'); rargs.append(n)
        head = f"instance {name} {' '.join(sb)} : Quiet {ro} (Cost.{name}{e} {' '.join(rargs)} : {ret.replace('M α', 'C α')}) := by"
        if 'partial_fixpoint' in b:
            allargs = [(n, ty) for ns, ty, kd in binders if kd == '(' for n in ns]
            fx = FIXEDQ.get(name, ['o']).copy()
            fl = [rargs[i] for i in range(len(allargs)) if allargs[i][0] in fx]
            vl = [x for x in allargs if x[0] not in fx]
            vb = ' '.join(f'({n} : {ty})' for n, ty in vl)
            va = ' '.join(n for n, ty in vl)
            fargs = (' ' + ' '.join(fl)) if fl else ''
            out.append(f'''{head}
  revert {va}
  refine Cost.{name}.fixpoint_induct{e}{fargs} (fun f => ∀ {vb}, Quiet {ro} (f {va})) adm{len(vl)} ?_
  intro f ih {va}
  quiet''')
        else:
            out.append(f'{head}\n  unfold Cost.{name}; quiet')
    open(f'{R}/Cost/{fname}.lean', 'w').write(f'''/-
  GENERATED by tools/gen_cost.py: {doc}
-/
import Verif.Cost.Quiet
set_option autoImplicit false
set_option linter.unusedVariables false
set_option synthInstance.maxSize 2000
set_option synthInstance.maxHeartbeats 400000

attribute [local instance] SegTree.Weights.{wname}

namespace SegTree
variable {{α β γ : Type}} {{E : Env α}}
namespace Quiet{fname}
open Quiet

''' + '\n'.join(out) + f'\n\nend Quiet{fname}\nend SegTree\n')
    return good

PN = '''theorem purge_node_q (o : Nat) : ∀ (ht p : Nat), Quiet RO (Cost.purge_node E o ht p)
  | 0, _ => ub _
  | 1, _ => ub _
  | 2, p => by unfold Cost.purge_node; quiet
  | ht + 3, p => by
    have ih := purge_node_q o (ht + 2)
    unfold Cost.purge_node; quiet'''
g1 = quiet('ReadOnly', 'writes', 'true', {'rdNode', 'rdSlots', 'rdObj'}, 'the functions that write nothing.', {})
g2 = quiet('Elem', 'elements', 'false', {'rdNode', 'wrNode', 'rdSlots', 'rdObj', 'wrObj', 'alloc', 'free'},
      'the functions that construct, assign and destroy no element.', {})
if '-v' in sys.argv:
    print('read only:', sorted(g1 - PURE)); print('no element:', sorted(g2 - PURE - g1))

# ---- which exceptions each function can raise
ORDER = ['OnMove', 'OnCopy', 'OnAlloc', 'OnRange']
BASE = {'copyVal': {'OnCopy'}, 'allocCell': {'OnAlloc'}}
HANDR = {'forN', 'range_loop', 'forward_loop', 'backward_loop', 'usub', 'Src', 'copyVal', 'allocCell'}
SRCI = {'listSrc': '(l : List α)', 'copySrc': '(it : Iter)', 'moveSrc': '(it : Iter)'}
needs = {n: set() for n in HANDR}
needs.update(BASE)
FIXED['assign_range_loop'] = ['o', 'last']
R3 = []
seen = set(HANDR)
for name, b in names:
    earlier = set(seen); seen.add(name)
    if name in HANDR: continue
    binders, ret, uses = info[name]
    e = ' E' if uses else ''
    body = b[re.search(r'^(def|structure) ', b, re.M).start():]
    words = set(re.findall(r'[A-Za-z_][A-Za-z_0-9]*', body)) - {name}
    nd = set()
    for c in words & earlier: nd |= needs[c]
    if 'M.throw .elem' in body: nd |= {'OnMove'}
    if 'M.throw .range' in body: nd |= {'OnRange'}
    needs[name] = nd
    cls = ' '.join('[%s%s T]' % (c, ' E' if c in ('OnMove', 'OnCopy') else '') for c in ORDER if c in nd)
    if cls: cls = ' ' + cls
    if name in SRCI:
        bs = ' '.join('(%s : %s)' % (' '.join(ns), ty) for ns, ty, kd in binders if kd == '(')
        a = ' '.join(n for ns, ty, kd in binders if kd == '(' for n in ns)
        v = SRCI[name].strip('()').split()[0]
        for fld in ('read', 'next'):
            pf = f'cases l <;> (simp only [SegTree.{name}]; raises)' if name == 'listSrc' else f'simp only [SegTree.{name}]; raises'
            R3.append(f'instance {name}_{fld} {bs} {SRCI[name]}{cls} : Raises T ((SegTree.{name}{e} {a}).{fld} {v}) := by\n  {pf}')
        continue
    sb, args, hs = [], [], []
    for ns, ty, kd in binders:
        if kd == '{': sb.append('{%s : %s}' % (' '.join(ns), ty)); continue
        for n in ns:
            args.append(n)
            if ty.startswith('Src'):
                sb.append(f'({n} : {ty}) [hr{n} : ∀ s, Raises T ({n}.read s)] [hn{n} : ∀ s, Raises T ({n}.next s)]')
            elif ty.startswith('M α'):
                sb.append(f'({n} : {ty}) [h{n} : Raises T {n}]')
            else:
                sb.append(f'({n} : {ty})')
    A = ' '.join(args)
    head = f"instance {name} {' '.join(sb)}{cls} : Raises T (SegTree.{name}{e} {A} : {ret}) := by"
    if name in PRIM1:
        if name == 'allocNodeCell':
            R3.append(f'{head}\n  exact ⟨fun m => (Raises.allocCell (E := E) (T := T) _).run m⟩')
        else:
            R3.append(f'{head}\n  refine ⟨fun m => ?_⟩\n  unfold SegTree.{name}\n  try dsimp only\n  repeat\' first | trivial | split')
    elif name == 'purge_node':
        R3.append('''theorem purge_node_r (o : Nat) : ∀ (ht p : Nat), Raises T (SegTree.purge_node E o ht p)
  | 0, _ => ub _
  | 1, _ => ub _
  | 2, p => by unfold SegTree.purge_node; raises
  | ht + 3, p => by
    have ih := purge_node_r o (ht + 2)
    unfold SegTree.purge_node; raises
instance purge_node (o ht p : Nat) : Raises T (SegTree.purge_node E o ht p) := purge_node_r o ht p''')
    elif name == 'emplace_count_loop':
        R3.append(f'''instance emplace_count_loop (o : Nat) (mk : M α α) (n : Nat) (it : Iter) [Raises T mk]{cls} :
    Raises T (SegTree.emplace_count_loop E o mk n it) := by
  induction n generalizing it with
  | zero => exact pure _
  | succ n ih => unfold SegTree.emplace_count_loop; raises''')
    elif 'partial_fixpoint' in b:
        allargs = [(n, ty) for ns, ty, kd in binders if kd == '(' for n in ns]
        fx = FIXED.get(name, ['o']).copy()
        srcs = [n for n, ty in allargs if ty.startswith('Src')]
        fl = [n for n, ty in allargs if n in fx or n in srcs]
        vl = [x for x in allargs if x[0] not in fx and x[0] not in srcs]
        vb = ' '.join(f'({n} : {ty})' for n, ty in vl)
        va = ' '.join(n for n, ty in vl)
        fargs = (' ' + ' '.join(fl)) if fl else ''
        R3.append(f'''{head}
  revert {va}
  refine SegTree.{name}.fixpoint_induct{e}{fargs} (fun f => ∀ {vb}, Raises T (f {va})) adm{len(vl)} ?_
  intro f ih {va}
  raises''')
    else:
        R3.append(f'{head}\n  unfold SegTree.{name}; raises')
open(f'{R}/Proof/Raises.lean', 'w').write('''/-
  GENERATED by tools/gen_cost.py: for every function of the model, in every
  memory and every configuration, the exceptions it can raise are those of the
  sources it reaches (allocation, move, copy, bounds check).
-/
import Verif.Proof.Throws
set_option autoImplicit false
set_option linter.unusedVariables false
set_option synthInstance.maxSize 2000
set_option synthInstance.maxHeartbeats 400000

namespace SegTree
variable {α β γ : Type} {E : Env α} {T : Exn → Prop}
namespace Raises

''' + '\n'.join(R3) + '\n\nend Raises\nend SegTree\n')
# ---- relations between the memory before and after each function
def traced(s):
    for x, y in (('Raises T', 'Traced P'), ('[OnMove E T]', '[AtMove E P]'), ('[OnCopy E T]', '[AtCopy E P]'),
                 ('[OnAlloc T]', '[AtAlloc E P]'), ('[OnRange T]', '[AtRange P]'), ('Raises.allocCell (E := E) (T := T)', 'Traced.allocCell (E := E) (P := P)'),
                 ('first | trivial | split', 'first | trivial | exact P.frame ⟨rfl, rfl⟩ | split'), ('raises', 'traced')):
        s = s.replace(x, y)
    return s
open(f'{R}/Proof/TracedAll.lean', 'w').write('''/-
  GENERATED by tools/gen_cost.py: for every function of the model, in every
  memory and every configuration, the memory before and after it are related by
  any relation that holds of the copies, moves, requests and checks it makes.
-/
import Verif.Proof.Traced
set_option autoImplicit false
set_option linter.unusedVariables false
set_option synthInstance.maxSize 2000
set_option synthInstance.maxHeartbeats 400000

namespace SegTree
variable {α β γ : Type} {E : Env α} {P : Proto α}
namespace Traced

''' + traced('\n'.join(R3)) + '\n\nend Traced\nend SegTree\n')
# ---- the same program with a non-throwing element type
HANDS = {'forN', 'range_loop', 'forward_loop', 'backward_loop', 'usub', 'Src', 'delegating', 'ctor_count', 'ctor_range',
         'ctor_copy_alloc', 'ctor_copy', 'ctor_move_alloc'}
R4 = []
for name, b in names:
    if name in HANDS: continue
    binders, ret, uses = info[name]
    if not uses:
        if name in PRIM1 or True:
            ok = not any(ty.startswith(('Src', 'M α')) for ns, ty, kd in binders)
            assert ok, name
            bs = ' '.join('(%s : %s)' % (' '.join(ns), ty) for ns, ty, kd in binders if kd == '(')
            a = ' '.join(n for ns, ty, kd in binders if kd == '(' for n in ns)
            R4.append(f'instance {name} {bs} : Same d (SegTree.{name} {a} : {ret}) (SegTree.{name} {a}) := refl _')
        continue
    if name in PRIM1:
        bs = ' '.join('(%s : %s)' % (' '.join(ns), ty) for ns, ty, kd in binders if kd == '(')
        a = ' '.join(n for ns, ty, kd in binders if kd == '(' for n in ns)
        R4.append(f'instance {name} {bs} : Same d (SegTree.{name} E {a} : {ret}) (SegTree.{name} E.calm {a}) := refl _')
        continue
    if name in SRCI:
        bs = ' '.join('(%s : %s)' % (' '.join(ns), ty) for ns, ty, kd in binders if kd == '(')
        a = ' '.join(n for ns, ty, kd in binders if kd == '(' for n in ns)
        c = 'cases l <;> ' if name == 'listSrc' else ''
        R4.append(f"""instance {name} {bs} : SameSrc d (SegTree.{name} E {a}) (SegTree.{name} E.calm {a}) where
  done _ := rfl
  read l := by {c}(simp only [SegTree.{name}]; calm)
  next l := by simp only [SegTree.{name}]; calm""")
        continue
    sb, largs, rargs, hs = [], [], [], []
    for ns, ty, kd in binders:
        if kd == '{': sb.append('{%s : %s}' % (' '.join(ns), ty)); continue
        for n in ns:
            if ty.startswith('Src'):
                sb.append(f'{{{n} {n}0 : {ty}}} [h{n} : SameSrc d {n} {n}0]'); largs.append(n); rargs.append(n + '0'); hs.append(n)
            elif ty.startswith('M α'):
                sb.append(f'{{{n} {n}0 : {ty}}} [h{n} : Same d {n} {n}0]'); largs.append(n); rargs.append(n + '0')
            else:
                sb.append(f'({n} : {ty})'); largs.append(n); rargs.append(n)
    A, B = ' '.join(largs), ' '.join(rargs)
    pre = ''.join(f'\n  have hr{n} := h{n}.read\n  have hn{n} := h{n}.next' for n in hs)
    done = ''.join(f'\n  try simp only [h{n}.done]' for n in hs)
    head = f"instance {name} {' '.join(sb)} : Same d (SegTree.{name} E {A} : {ret}) (SegTree.{name} E.calm {B}) := by{pre}"
    if name == 'purge_node':
        R4.append("""theorem purge_node_s (o : Nat) : ∀ (ht p : Nat), Same d (SegTree.purge_node E o ht p) (SegTree.purge_node E.calm o ht p)
  | 0, _ => ub _
  | 1, _ => ub _
  | 2, p => by unfold SegTree.purge_node; calm
  | ht + 3, p => by
    have ih := purge_node_s o (ht + 2)
    unfold SegTree.purge_node; calm
instance purge_node (o ht p : Nat) : Same d (SegTree.purge_node E o ht p) (SegTree.purge_node E.calm o ht p) := purge_node_s o ht p""")
    elif name == 'emplace_count_loop':
        R4.append("""instance emplace_count_loop (o : Nat) {mk mk0 : M α α} [Same d mk mk0] (n : Nat) (it : Iter) :
    Same d (SegTree.emplace_count_loop E o mk n it) (SegTree.emplace_count_loop E.calm o mk0 n it) := by
  induction n generalizing it with
  | zero => exact pure _
  | succ n ih => unfold SegTree.emplace_count_loop; calm""")
    elif 'partial_fixpoint' in b:
        allargs = [(n, ty) for ns, ty, kd in binders if kd == '(' for n in ns]
        fx = FIXED.get(name, ['o']).copy()
        srcs = [n for n, ty in allargs if ty.startswith('Src')]
        idx = [i for i, (n, ty) in enumerate(allargs) if n in fx or n in srcs]
        fl = ' '.join([''] + [largs[i] for i in idx])
        fr = ' '.join([''] + [rargs[i] for i in idx])
        vl = [x for x in allargs if x[0] not in fx and x[0] not in srcs]
        vb = ' '.join(f'({n} : {ty})' for n, ty in vl)
        va = ' '.join(n for n, ty in vl)
        us = ' '.join('_' for _ in vl)
        d2 = done.replace('\n  ', '\n    ')
        R4.append(f"""{head}
  revert {va}
  cases d
  · refine SegTree.{name}.fixpoint_induct E.calm{fr} (fun f => ∀ {vb},
      Same false (SegTree.{name} E {A}) (f {va})) (adm{len(vl)} fun {us} => admR _) ?_
    intro f ih {va}
    unfold SegTree.{name}{d2}
    calm
  · refine SegTree.{name}.fixpoint_induct E{fl} (fun f => ∀ {vb},
      Same true (f {va}) (SegTree.{name} E.calm {B})) (adm{len(vl)} fun {us} => admL _) ?_
    intro f ih {va}
    unfold SegTree.{name}{d2}
    calm""")
    else:
        R4.append(f'{head}\n  unfold SegTree.{name}{done}\n  calm')
open(f'{R}/Proof/CalmAll.lean', 'w').write("""/-
  GENERATED by tools/gen_cost.py: every function of the model does with a type
  whose moves may throw what it does with the same type made non-throwing, or ends
  in an element exception.
-/
import Verif.Proof.Calm
set_option autoImplicit false
set_option linter.unusedVariables false
set_option linter.unusedSimpArgs false
set_option synthInstance.maxSize 2000
set_option synthInstance.maxHeartbeats 400000

namespace SegTree
variable {α β γ : Type} {E : Env α} {dir : Bool}
namespace Same

""" + '\n'.join(R4).replace('Same d ', 'Same dir ').replace('SameSrc d ', 'SameSrc dir ').replace('cases d\n', 'cases dir\n') + '\n\nend Same\nend SegTree\n')
# ---- the copy of the model in which moves may throw at any moment
RM = []
for name, b in names:
    m = re.search(r'^(def|structure) (\S+)', b, re.M)
    doc, body = b[:m.start()], b[m.start():]
    binders, ret, uses = info[name]
    c = re.sub(r'\bM α\b', 'N α', b)
    c = re.sub(r'\bM\.(?!onThrow`)', 'N.', c)
    c = re.sub(r'if E\.throws (\w+) then', r'if (← fails E \1) then', c)
    assert 'E.throws' not in c, name
    if name in PRIM1 or name == 'usub':
        args = ' '.join(n for ns, ty, kd in binders if kd == '(' for n in ns)
        hdr = re.sub(r'\bM α\b', 'N α', body.split(':=')[0].rstrip())
        c = doc + hdr + ' :=\n  N.lift (SegTree.%s%s %s)' % (name, ' E' if uses else '', args)
    RM.append(c)
spec = open(f'{R}/Props/Spec.lean').read()
def specdef(ns, d):
    s = spec[spec.index(f'namespace {ns}\n'):]
    s = s[:s.index(f'end {ns}\n')]
    k = re.search(rf'^def {d}\b', s, re.M).start()
    s = s[k:]
    s = re.split(r'\n\n', s)[0]
    return re.sub(r'\bM α\b', 'N α', s)
RUN = []
for d in ['unit', 'pos', 'val', 'num', 'flag']:
    s = spec[spec.index('namespace Un\n'):]
    l = re.search(rf'^def {d}\b.*$', s, re.M).group(0)
    RUN.append(re.sub(r'\bM α\b', 'N α', l))
def runof(ns):
    s = specdef(ns, 'run').replace('SegTree.', '').replace('Un.', 'Rough.Un.')
    s = s.replace('SegTree.', '')
    s = re.sub(r'\(sort E o comp\)', '(N.lift (SegTree.sort E o comp))', s)
    s = re.sub(r'\(merge E o p comp\)', '(N.lift (SegTree.merge E o p comp))', s)
    return s
out = ['namespace Un', '\n'.join(RUN), '/-- `SegTree.Un.run` -/\n' + re.sub(r'\b(unit|pos|val|num|flag) \(', r'Rough.Un.\1 (', runof('Un').replace('Rough.Un.', '')).replace(': Un α', ': SegTree.Un α').replace('def run', 'def _root_.SegTree.Un.rough'), 'end Un']
for ns in ['Bin', 'New', 'New2']:
    out.append(f'/-- `SegTree.{ns}.run` -/\n' + runof(ns).replace(f': {ns} α', f': SegTree.{ns} α').replace('def run', f'def _root_.SegTree.{ns}.rough'))
out.append("""/-- a call of the interface, in a program whose moves may throw at any moment
(`Op.run`); `sort` and `merge` are the model's, whose moves are in the standard library -/
def _root_.SegTree.Op.rough (E : Env α) : Op α → N α (Ret α)
  | .un o c => c.rough E o
  | .bin o p c => c.rough E o p
  | .new o c => c.rough E o
  | .new2 o p c => c.rough E o p
  | .dtor o => Rough.Un.unit (dtor E o)""")
os.makedirs(f'{R}/Rough', exist_ok=True)
open(f'{R}/Rough/Model.lean', 'w').write("""/-
  GENERATED by tools/gen_cost.py from Verif/Model: the model's functions, text
  unchanged except that every move of an element asks `fails` whether it throws.
  Comments cite the lines of seq.hpp.
-/
import Verif.Rough.Base
import Verif.Props.Spec
set_option autoImplicit false
set_option linter.unusedVariables false

namespace SegTree.Rough

section
variable {α : Type} [Moves α] (E : Env α)

""" + '\n\n'.join(RM) + '\n\nend\n\nsection\nvariable {α : Type} [Moves α]\n\n' + '\n\n'.join(out) + '\n\nend\nend SegTree.Rough\n')

R5 = []
for name, b in names:
    if name in HANDS: continue
    binders, ret, uses = info[name]
    e = ' E' if uses else ''
    ec = ' E.calm' if uses else ''
    rn = ret.replace('M α', 'N α')
    bs = ' '.join('(%s : %s)' % (' '.join(ns), ty) for ns, ty, kd in binders if kd == '(')
    a = ' '.join(n for ns, ty, kd in binders if kd == '(' for n in ns)
    if name in PRIM1:
        R5.append(f'instance {name} {bs} : Lag dir (Rough.{name}{e} {a} : {rn}) (SegTree.{name}{ec} {a}) := lift _')
        R5.append(f'instance {name}_x {bs} : Exact (Rough.{name}{e} {a} : {rn}) (SegTree.{name}{ec} {a}) := Exact.lift _')
        continue
    if name in SRCI:
        c = 'cases l <;> ' if name == 'listSrc' else ''
        R5.append(f"""instance {name} {bs} : LagSrc dir (Rough.{name} E {a}) (SegTree.{name} E.calm {a}) where
  done _ := rfl
  read l := by {c}(simp only [SegTree.{name}, Rough.{name}]; lag)
  next l := by simp only [SegTree.{name}, Rough.{name}]; lag""")
        continue
    sb, largs, rargs, hs = [], [], [], []
    for ns, ty, kd in binders:
        if kd == '{': sb.append('{%s : %s}' % (' '.join(ns), ty)); continue
        for n in ns:
            if ty.startswith('Src'):
                sb.append(f'{{{n} : Rough.{ty}}} {{{n}0 : SegTree.{ty}}} [h{n} : LagSrc dir {n} {n}0]'); largs.append(n); rargs.append(n + '0'); hs.append(n)
            elif ty.startswith('M α'):
                sb.append(f'{{{n} : {ty.replace("M α", "N α")}}} {{{n}0 : {ty}}} [h{n} : Lag dir {n} {n}0]'); largs.append(n); rargs.append(n + '0')
            else:
                sb.append(f'({n} : {ty})'); largs.append(n); rargs.append(n)
    A, B = ' '.join(largs), ' '.join(rargs)
    pre = ''.join(f'\n  have hr{n} := h{n}.read\n  have hn{n} := h{n}.next' for n in hs)
    done = ''.join(f'\n  try simp only [h{n}.done]' for n in hs)
    head = f"instance {name} {' '.join(sb)} : Lag dir (Rough.{name}{e} {A} : {rn}) (SegTree.{name}{ec} {B}) := by{pre}"
    if name == 'allocate_node':
        R5.append(f'instance allocate_node_x {bs} : Exact (Rough.{name} E {a}) (SegTree.{name} E.calm {a}) := by\n  unfold Rough.{name} SegTree.{name}; uncalm; infer_instance')
    if name == 'purge_node':
        R5.append("""theorem purge_node_s (o : Nat) : ∀ (ht p : Nat), Lag dir (Rough.purge_node E o ht p) (SegTree.purge_node E.calm o ht p)
  | 0, _ => ub _
  | 1, _ => ub _
  | 2, p => by unfold Rough.purge_node SegTree.purge_node; lag
  | ht + 3, p => by
    have ih := purge_node_s o (ht + 2)
    unfold Rough.purge_node SegTree.purge_node; lag
instance purge_node (o ht p : Nat) : Lag dir (Rough.purge_node E o ht p) (SegTree.purge_node E.calm o ht p) := purge_node_s o ht p""")
    elif name == 'emplace_count_loop':
        R5.append("""instance emplace_count_loop (o : Nat) {mk : N α α} {mk0 : M α α} [Lag dir mk mk0] (n : Nat) (it : Iter) :
    Lag dir (Rough.emplace_count_loop E o mk n it) (SegTree.emplace_count_loop E.calm o mk0 n it) := by
  induction n generalizing it with
  | zero => exact pure _
  | succ n ih => unfold Rough.emplace_count_loop SegTree.emplace_count_loop; lag""")
    elif 'partial_fixpoint' in b:
        allargs = [(n, ty) for ns, ty, kd in binders if kd == '(' for n in ns]
        fx = FIXED.get(name, ['o']).copy()
        srcs = [n for n, ty in allargs if ty.startswith('Src')]
        idx = [i for i, (n, ty) in enumerate(allargs) if n in fx or n in srcs]
        fl = ' '.join([''] + [largs[i] for i in idx])
        fr = ' '.join([''] + [rargs[i] for i in idx])
        vl = [x for x in allargs if x[0] not in fx and x[0] not in srcs]
        vb = ' '.join(f'({n} : {ty})' for n, ty in vl)
        va = ' '.join(n for n, ty in vl)
        us = ' '.join('_' for _ in vl)
        d2 = done.replace('\n  ', '\n    ')
        R5.append(f"""{head}
  revert {va}
  cases dir
  · refine SegTree.{name}.fixpoint_induct{ec}{fr} (fun f => ∀ {vb},
      Lag false (Rough.{name}{e} {A}) (f {va})) (Same.adm{len(vl)} fun {us} => admR _) ?_
    intro f ih {va}
    unfold Rough.{name}{d2}
    lag
  · refine Rough.{name}.fixpoint_induct{e}{fl} (fun f => ∀ {vb},
      Lag true (f {va}) (SegTree.{name}{ec} {B})) (adm{len(vl)} fun {us} => admL _) ?_
    intro f ih {va}
    unfold SegTree.{name}{d2}
    lag""")
    else:
        R5.append(f'{head}\n  unfold Rough.{name} SegTree.{name}{done}\n  lag')
open(f'{R}/Rough/Sim.lean', 'w').write("""/-
  GENERATED by tools/gen_cost.py: every function of the model, with moves that may
  throw at any moment, does what it does without them, or ends in an element exception.
-/
import Verif.Rough.Lag
set_option autoImplicit false
set_option linter.unusedVariables false
set_option linter.unusedSimpArgs false
set_option synthInstance.maxSize 2000
set_option synthInstance.maxHeartbeats 400000

namespace SegTree
variable {α β γ : Type} [Moves α] {E : Env α} {dir : Bool}
namespace Lag

""" + '\n'.join(R5) + '\n\nend Lag\nend SegTree\n')
if '-v' in sys.argv:
    for n, s in needs.items(): print(n, sorted(s))

# ---- the copy of the model for a thread among others
def sig_of(b):
    m = re.search(r'^(def|structure) (\S+)', b, re.M)
    sig = b[m.end():]
    d = 0; k = 0
    while True:
        ch = sig[k]
        if ch in '({[': d += 1
        if ch in ')}]': d -= 1
        if ch == ':' and d == 0: break
        if sig.startswith('where', k) and d == 0: break
        k += 1
    ret = sig[k+1:].split(':=')[0].split('\n  |')[0].strip()
    return strip_binders(sig[:k]), ret, bool(re.search(r'\bE\b', sig))
LOCOF = {'rdNode': ('reads', '(.heap p)'), 'rdSlots': ('reads', '(.heap p)'), 'rdObj': ('reads', '(.obj o)'),
         'wrNode': ('writes', '(.heap p)'), 'wrSlots': ('writes', '(.heap p)'), 'wrObj': ('writes', '(.obj o)'),
         'freeSeg': ('releases', '(.heap p)'), 'freeNode': ('releases', '(.heap p)'), 'dropObj': ('releases', '(.obj o)'),
         'allocCell': ('acquires', '(fun g => .heap (E.oracle g.reqs))'),
         'allocNodeCell': ('acquires', '(fun g => .heap (E.oracle g.reqs))'),
         'ctor': ('acquires', '(fun _ => .obj o)'), 'copyVal': ('local_', '')}
tnames = []
TM, R6 = [], []
FIXED['read_range'] = ['last']
for f, b in blocks:
    m = re.search(r'^(def|structure) (\S+)', b, re.M)
    name = m.group(2)
    if name in PURE: continue
    tnames.append((name, b))
    info[name] = sig_of(b)
    binders, ret, uses = info[name]
    doc, body = b[:m.start()], b[m.start():]
    c = re.sub(r'\bM α\b', 'T α', b)
    c = re.sub(r'\bM\.(?!onThrow`)', 'T.', c)
    if name in LOCOF:
        args = ' '.join(n for ns, ty, kd in binders if kd == '(' for n in ns)
        hdr = re.sub(r'\bM α\b', 'T α', body.split(':=')[0].rstrip())
        k, l = LOCOF[name]
        c = doc + hdr + ' :=\n  T.%s %s (SegTree.%s%s %s)' % (k, l, name, ' E' if uses else '', args)
    TM.append(c)
def among(s): return s.replace('Sim', 'Thr').replace('Cost.', 'Thread.').replace('C α', 'T α')
def runof_t(ns):
    s = specdef(ns, 'run').replace('N α', 'T α').replace('SegTree.', '')
    return s
OUT = ['namespace Un', '\n'.join(l.replace('N α', 'T α') for l in RUN),
       '/-- `SegTree.Un.run` -/\n' + re.sub(r'\b(unit|pos|val|num|flag) \(', r'Thread.Un.\1 (', runof_t('Un')).replace(': Un α', ': SegTree.Un α').replace('def run', 'def _root_.SegTree.Un.among'), 'end Un']
for ns in ['Bin', 'New', 'New2']:
    OUT.append(f'/-- `SegTree.{ns}.run` -/\n' + runof_t(ns).replace('Un.', 'Thread.Un.').replace(f': {ns} α', f': SegTree.{ns} α').replace('def run', f'def _root_.SegTree.{ns}.among'))
OUT.append("""/-- a call of the interface, by a thread among others (`Op.run`) -/
def _root_.SegTree.Op.among (E : Env α) : Op α → T α (Ret α)
  | .un o c => c.among E o
  | .bin o p c => c.among E o p
  | .new o c => c.among E o
  | .new2 o p c => c.among E o p
  | .dtor o => Thread.Un.unit (dtor E o)""")
open(f'{R}/Thread/Model.lean', 'w').write("""/-
  GENERATED by tools/gen_cost.py from Verif/Model: the model's functions, text
  unchanged, for a thread among others.  Before every access to memory the other
  threads act, and the access is checked (Thread/Base.lean).  Comments cite the
  lines of seq.hpp.
-/
import Verif.Thread.Base
import Verif.Props.Spec
set_option autoImplicit false
set_option linter.unusedVariables false

namespace SegTree.Thread

noncomputable section
variable {α : Type} (E : Env α)

""" + '\n\n'.join(TM) + '\n\nend\n\nnoncomputable section\nvariable {α : Type}\n\n' + '\n\n'.join(OUT) + '\n\nend\nend SegTree.Thread\n')
TH = {k: among(v).replace('; sim', '; thr').replace('\n  sim', '\n  thr') for k, v in handtext.items() if k != 'memcpy_segment'}
TH = {k: re.sub(r'\bThr(Src)? ', r'Thr\1 L ', v) for k, v in TH.items()}
TH['write_range'] = """instance write_range (first : Iter) (vs : List α) :
    Thr L (SegTree.write_range E first vs) (Thread.write_range E first vs) := by
  induction vs generalizing first with
  | nil => exact pure _
  | cons v vs ih => unfold SegTree.write_range Thread.write_range; thr"""
def relate(cls, hand, tac, only=None):
    S = []
    for name, b in tnames:
        if only is not None and name not in only: continue
        if name in hand:
            if hand[name]: S.append(hand[name])
            continue
        if name in PRIM1 or name == 'usub': continue
        binders, ret, uses = info[name]
        e = ' E' if uses else ''
        sb, largs, rargs = [], [], []
        for ns, ty, kd in binders:
            if kd == '{': sb.append('{%s : %s}' % (' '.join(ns), ty)); continue
            for n in ns:
                if ty.startswith('Src'):
                    sb.append(f'{{{n} : SegTree.{ty}}} {{{n}c : Thread.{ty}}} [{cls.replace("Thr","ThrSrc").replace("Looks","LooksSrc")} {n} {n}c]'); largs.append(n); rargs.append(n+'c')
                elif ty.startswith('M α'):
                    sb.append(f'{{{n} : {ty}}} {{{n}c : {ty.replace("M α","T α")}}} [{cls} {n} {n}c]'); largs.append(n); rargs.append(n+'c')
                else:
                    sb.append(f'({n} : {ty})'); largs.append(n); rargs.append(n)
        head = f"instance {name} {' '.join(sb)} : {cls} (SegTree.{name}{e} {' '.join(largs)} : {ret}) (Thread.{name}{e} {' '.join(rargs)}) := by"
        if 'partial_fixpoint' in b:
            allargs = [(n, ty) for ns, ty, kd in binders if kd == '(' for n in ns]
            fx = FIXED.get(name, ['o']).copy()
            fl = [largs[i] for i in range(len(allargs)) if allargs[i][0] in fx]
            vl = [x for x in allargs if x[0] not in fx]
            vb = ' '.join(f'({n} : {ty})' for n, ty in vl)
            va = ' '.join(n for n, ty in vl)
            fargs = (' ' + ' '.join(fl)) if fl else ''
            S.append(f'''{head}
  revert {va}
  refine SegTree.{name}.fixpoint_induct{e}{fargs} (fun f => ∀ {vb}, {cls} (f {va}) (Thread.{name}{e} {' '.join(rargs)})) (adm{len(vl)} _) ?_
  intro f ih {va}
  unfold Thread.{name}; {tac}''')
        else:
            S.append(f'{head}\n  unfold SegTree.{name} Thread.{name}; {tac}')
    return '\n'.join(S)
open(f'{R}/Thread/Sim.lean', 'w').write(open(os.path.join(os.path.dirname(__file__), 'thread_head.txt')).read() + relate('Thr L', TH, 'thr') + '\n\nend Thr\nend SegTree\n')

# ---- from one access to the next; functions that only read
def unary(cls, hand, tac, only=None, zone=False):
    S = []
    ctors = {'ctor'}
    good = set(PURE) | {'rdNode', 'rdSlots', 'rdObj', 'usub'}
    seen = set()
    for name, b in tnames:
        earlier = set(seen); seen.add(name)
        body = b[re.search(r'^(def|structure) ', b, re.M).start():]
        words = set(re.findall(r'[A-Za-z_][A-Za-z_0-9]*', body)) - {name}
        if words & ctors: ctors.add(name)
        if name in PRIM1 or name == 'usub': continue
        if only is not None and name not in only: continue
        if name in hand:
            if hand[name]: S.append(hand[name])
            continue
        binders, ret, uses = info[name]
        ret = ret.replace('M α', 'T α')
        e = ' E' if uses else ''
        cs = ''
        if zone and uses: cs += ' [Zone E Z]'
        if zone and name in ctors: cs += ' [Named Z o]'
        sb, args, pre = [], [], ''
        for ns, ty, kd in binders:
            if kd == '{': sb.append('{%s : %s}' % (' '.join(ns), ty)); continue
            for n in ns:
                args.append(n)
                if ty.startswith('Src'):
                    sb.append(f'{{{n} : Thread.{ty}}} [h{n} : {cls[0]}Src{cls[1]} {n}]')
                    pre += f'\n  have hr{n} := h{n}.read\n  have hn{n} := h{n}.next'
                elif 'M α' in ty:
                    q = ty.split('→')
                    k = ' '.join(f'i{j}' for j in range(len(q) - 1))
                    sb.append(f'{{{n} : {ty.replace("M α","T α")}}} [h{n} : {"∀ "+k+", " if k else ""}{cls[0]}{cls[1]} ({n} {k})]')
                else: sb.append(f'({n} : {ty})')
        head = f"instance {name} {' '.join(sb)}{cs} : {cls[0]}{cls[1]} (Thread.{name}{e} {' '.join(args)} : {ret}) := by{pre}"
        if 'partial_fixpoint' in b:
            allargs = [(n, ty) for ns, ty, kd in binders if kd == '(' for n in ns]
            fx = FIXEDT.get(name, FIXED.get(name, ['o'])).copy()
            fl = [n for n, ty in allargs if n in fx]
            vl = [x for x in allargs if x[0] not in fx]
            vb = ' '.join(f'({n} : {ty})' for n, ty in vl)
            va = ' '.join(n for n, ty in vl)
            fargs = (' ' + ' '.join(fl)) if fl else ''
            S.append(f'''{head}
  revert {va}
  refine Thread.{name}.fixpoint_induct{e}{fargs} (fun f => ∀ {vb}, {cls[0]}{cls[1]} (f {va})) adm{len(vl)} ?_
  intro f ih {va}
  {tac}''')
        else:
            S.append(f'{head}\n  unfold Thread.{name}; {tac}')
    return '\n'.join(S)
FIXEDT = {'range_loop': ['step', 'last'], 'forward_loop': ['step', 'first'], 'backward_loop': ['step', 'last'],
          'emplace_range_loop': ['S', 'o'], 'assign_range_loop': ['S', 'o', 'last']}
HT = {'Src': '', 'forN': """instance forN (f : Nat → T α Unit) (n i : Nat) [hf : ∀ i, CLS (f i)] : CLS (Thread.forN f n i) := by
  induction n generalizing i with
  | zero => exact pure _
  | succ n ih => exact bind (hf := fun _ => ih _)""",
 'purge_node': """theorem purge_node_p (o : Nat) [Zone E Z] : ∀ (ht p : Nat), CLS (Thread.purge_node E o ht p)
  | 0, _ => ub _
  | 1, _ => ub _
  | 2, p => by unfold Thread.purge_node; paced
  | ht + 3, p => by
    have ih := purge_node_p o (ht + 2)
    unfold Thread.purge_node; paced
instance purge_node (o ht p : Nat) [Zone E Z] : CLS (Thread.purge_node E o ht p) := purge_node_p o ht p""",
 'emplace_count_loop': """instance emplace_count_loop (o : Nat) {mk : T α α} [CLS mk] [Zone E Z] (n : Nat) (it : Iter) :
    CLS (Thread.emplace_count_loop E o mk n it) := by
  induction n generalizing it with
  | zero => exact pure _
  | succ n ih => unfold Thread.emplace_count_loop; paced""",
 'write_range': """instance write_range (first : Iter) (vs : List α) [Zone E Z] : CLS (Thread.write_range E first vs) := by
  induction vs generalizing first with
  | nil => exact pure _
  | cons v vs ih => unfold Thread.write_range; paced""",
 'listSrc': """instance listSrc [Zone E Z] : CLSSrc (Thread.listSrc E) where
  read l := by cases l <;> (simp only [Thread.listSrc]; infer_instance)
  next l := by simp only [Thread.listSrc]; infer_instance""",
 'copySrc': """instance copySrc [Zone E Z] (last : Iter) : CLSSrc (Thread.copySrc E last) where
  read it := by simp only [Thread.copySrc]; infer_instance
  next it := by simp only [Thread.copySrc]; infer_instance""",
 'moveSrc': """instance moveSrc [Zone E Z] (last : Iter) : CLSSrc (Thread.moveSrc E last) where
  read it := by simp only [Thread.moveSrc]; infer_instance
  next it := by simp only [Thread.moveSrc]; infer_instance"""}
td = os.path.dirname(__file__)
HP = {k: v.replace('CLSSrc', 'PacedSrc Z').replace('CLS', 'Paced Z') for k, v in HT.items()}
HL = {k: v.replace('Thr L', 'Looks').replace('Thr', 'Looks').replace('; thr', '; looks').replace('Looksead.', 'Thread.') for k, v in TH.items()}
open(f'{R}/Thread/Pace.lean', 'w').write(open(td + '/thread_pace.txt').read() + unary(('Paced', ' Z'), HP, 'paced', zone=True) + '\n\nend Paced\nend SegTree\n')
open(f'{R}/Thread/Look.lean', 'w').write(open(td + '/thread_look.txt').read() + relate('Looks', HL, 'looks', only=g1 - {'copySrc', 'moveSrc', 'listSrc'} | {'read_range'}) + '\n\nend Looks\nend SegTree\n')
HC = {k: re.sub(r' ?\[Zone E Z\]', '', v.replace('CLSSrc', 'CausalSrc').replace('CLS', 'Causal').replace('paced', 'causal')) for k, v in HT.items()}
open(f'{R}/Thread/Causal.lean', 'w').write(open(td + '/thread_causal.txt').read() + unary(('Causal', ''), HC, 'causal') + '\n\nend Causal\nend SegTree\n')
