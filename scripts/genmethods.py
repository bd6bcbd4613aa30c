#!/usr/bin/env python3
"""Generate lean/Verif/Model/MethodTable.lean from the text of amqp_framing.c and framing.h.
Every statement of every `case` must match one of the known templates, otherwise the script aborts."""
import re, sys
R = '/repo/'
C = open(R + 'librabbitmq/amqp_framing.c').read()
H = open(R + 'include/rabbitmq-c/framing.h').read()

def lineno(txt, pos): return txt.count('\n', 0, pos) + 1
def norm(s): return re.sub(r'\s+', ' ', s).strip()
def norm2(s):
    s = norm(s)
    return s.replace('( ', '(').replace(' )', ')')

# ---- ids -------------------------------------------------------------------------------------------------
ids, idline = {}, {}
for m in re.finditer(r'#define (AMQP_\w+_METHOD)\s*\\?\s*\(\(amqp_method_number_t\)0x([0-9A-F]{8})\)', H):
    ids[m.group(1)] = int(m.group(2), 16); idline[m.group(1)] = lineno(H, m.start())

# ---- structs ---------------------------------------------------------------------------------------------
structs = {}
for m in re.finditer(r'typedef struct (amqp_\w+_t)_ \{(.*?)\} (amqp_\w+_t);', H, re.S):
    body = re.sub(r'/\*.*?\*/', '', m.group(2), flags=re.S)
    fl = []
    for st in [norm(x) for x in body.split(';') if norm(x)]:
        ty, nm = st.rsplit(' ', 1)
        fl.append((nm, ty))
    structs[m.group(3)] = (fl, lineno(H, m.start()), lineno(H, m.end()))

def func(name, sig):
    i = C.index(sig)
    # body until "\n}\n"
    j = C.index('\n}\n', i)
    return i, j, C[i:j + 2]

def cases(i, body):
    """yield (label, text, line0, line1) for `case X: {...}` blocks"""
    out = []
    for m in re.finditer(r'\n    case (\w+): \{\n(.*?)\n    \}(?=\n)', body, re.S):
        out.append((m.group(1), m.group(2), lineno(C, i + m.start() + 1), lineno(C, i + m.end())))
    n = len(re.findall(r'\n    case ', body))
    assert n == len(out), (n, len(out))
    return out

RB = r'return AMQP_STATUS_BAD_AMQP_DATA;'
ENC = [
  (r'if \(!amqp_encode_(8|16|32|64)\(encoded, &offset, V->(\w+)\)\) ' + RB,
     lambda m: ('field', {'8':'octet','16':'short','32':'long','64':'longlong'}[m.group(1)], m.group(2))),
  (r'\{ int res = amqp_encode_table\(encoded, &\(V->(\w+)\), &offset\); if \(res < 0\) return res; \}',
     lambda m: ('field', 'table', m.group(1))),
  (r'if \(UINT8_MAX < V->(\w+)\.len \|\| !amqp_encode_8\(encoded, &offset, \(uint8_t\)V->(\w+)\.len\) \|\| !amqp_encode_bytes\(encoded, &offset, V->(\w+)\)\) ' + RB,
     lambda m: ('field', 'shortstr', m.group(1)) if m.group(1)==m.group(2)==m.group(3) else None),
  (r'if \(UINT32_MAX < V->(\w+)\.len \|\| !amqp_encode_32\(encoded, &offset, \(uint32_t\)V->(\w+)\.len\) \|\| !amqp_encode_bytes\(encoded, &offset, V->(\w+)\)\) ' + RB,
     lambda m: ('field', 'longstr', m.group(1)) if m.group(1)==m.group(2)==m.group(3) else None),
  (r'bit_buffer = 0; ((?:if \(V->\w+\) bit_buffer \|= \(1 << \d\); ?|if \(V->\w+\) \{ bit_buffer \|= \(1 << \d\); \} ?)+)if \(!amqp_encode_8\(encoded, &offset, bit_buffer\)\) ' + RB,
     lambda m: ('bits', [(a, int(b)) for a, b in re.findall(r'if \(V->(\w+)\) \{? ?bit_buffer \|= \(1 << (\d)\);', m.group(1))])),
]
DEC = [
  (r'if \(!amqp_decode_(8|16|32|64)\(encoded, &offset, &V->(\w+)\)\) ' + RB,
     lambda m: ('field', {'8':'octet','16':'short','32':'long','64':'longlong'}[m.group(1)], m.group(2))),
  (r'\{ int res = amqp_decode_table\(encoded, pool, &\(V->(\w+)\), &offset\); if \(res < 0\) return res; \}',
     lambda m: ('field', 'table', m.group(1))),
  (r'\{ uint8_t len; if \(!amqp_decode_8\(encoded, &offset, &len\) \|\| !amqp_decode_bytes\(encoded, &offset, &V->(\w+), len\)\) ' + RB + r' \}',
     lambda m: ('field', 'shortstr', m.group(1))),
  (r'\{ uint32_t len; if \(!amqp_decode_32\(encoded, &offset, &len\) \|\| !amqp_decode_bytes\(encoded, &offset, &V->(\w+), len\)\) ' + RB + r' \}',
     lambda m: ('field', 'longstr', m.group(1))),
  (r'if \(!amqp_decode_8\(encoded, &offset, &bit_buffer\)\) ' + RB + r'((?: V->\w+ = \(bit_buffer & \(1 << \d\)\) \? 1 : 0;)+)',
     lambda m: ('bits', [(a, int(b)) for a, b in re.findall(r'V->(\w+) = \(bit_buffer & \(1 << (\d)\)\) \? 1 : 0;', m.group(1))])),
]
def parse(text, templ, var):
    text = norm2(text).replace(var + '->', 'V->')
    ops = []
    while text:
        for rx, f in templ:
            m = re.match(rx, text)
            if m:
                o = f(m)
                assert o is not None, text[:200]
                ops.append(o); text = text[m.end():].strip(); break
        else:
            sys.exit('UNPARSED: ' + text[:300])
    return ops

def enc_case(label, txt):
    t = norm2(txt)
    m = re.match(r'amqp_(\w+)_t \*m = \(amqp_(\w+)_t \*\)decoded; ', t)
    st = None
    if m:
        assert m.group(1) == m.group(2); st = 'amqp_' + m.group(1) + '_t'; t = t[m.end():]
    assert t.endswith('return (int)offset;'), t
    t = t[:-len('return (int)offset;')].strip()
    return st, parse(t, ENC, 'm')
def dec_case(label, txt):
    t = norm2(txt)
    m = re.match(r'(amqp_\w+_t) \*m = \((amqp_\w+_t) \*\)amqp_pool_alloc\(pool, sizeof\((amqp_\w+_t)\)\); if \(m == NULL\) \{ return AMQP_STATUS_NO_MEMORY; \} ', t)
    assert m and m.group(1)==m.group(2)==m.group(3), t[:200]
    st = m.group(1); t = t[m.end():]
    assert t.endswith('*decoded = m; return 0;'), t
    t = t[:-len('*decoded = m; return 0;')].strip()
    return st, parse(t, DEC, 'm')

i, j, b = func('enc', 'int amqp_encode_method(amqp_method_number_t methodNumber')
assert norm(b).endswith('default: return AMQP_STATUS_UNKNOWN_METHOD; } }')
encl0, encl1 = lineno(C, i), lineno(C, j) + 1
enc = [(l,) + enc_case(l, t) + (a, z) for l, t, a, z in cases(i, b)]
i, j, b = func('dec', 'int amqp_decode_method(amqp_method_number_t methodNumber')
assert norm(b).endswith('default: return AMQP_STATUS_UNKNOWN_METHOD; } }')
declo, dechi = lineno(C, i), lineno(C, j) + 1
dec = [(l,) + dec_case(l, t) + (a, z) for l, t, a, z in cases(i, b)]
for l, st, ops, a, z in dec:
    assert st == l.lower().replace('_method', '_t'), (l, st)
for l, st, ops, a, z in enc:
    assert st is None and ops == [] or st == l.lower().replace('_method', '_t'), (l, st)
    if st is None: assert structs[l.lower().replace('_method', '_t')][0] == [('dummy', 'char')], l

# names
i, j, b = func('name', 'char const *amqp_method_name(amqp_method_number_t methodNumber)')
names = re.findall(r'case (\w+):\s*return "(\w+)";', b)
assert len(names) == b.count('case '); assert norm(b).endswith('default: return NULL; } }')
namelo, namehi = lineno(C, i), lineno(C, j) + 1
i, j, b = func('hc', 'amqp_boolean_t amqp_method_has_content(amqp_method_number_t methodNumber)')
hc = re.findall(r'case (\w+):\s*return 1;', b)
assert len(hc) == b.count('case '); assert norm(b).endswith('default: return 0; } }')
hclo, hchi = lineno(C, i), lineno(C, j) + 1

# properties
def prop_case_dec(label, txt):
    t = norm2(txt)
    m = re.match(r'(amqp_\w+_t) \*p = \((amqp_\w+_t) \*\)amqp_pool_alloc\(pool, sizeof\((amqp_\w+_t)\)\); if \(p == NULL\) \{ return AMQP_STATUS_NO_MEMORY; \} p->_flags = flags; ', t)
    assert m and m.group(1)==m.group(2)==m.group(3), t[:200]
    st = m.group(1); t = t[m.end():]
    assert t.endswith('*decoded = p; return 0;'), t
    return st, prop_ops(t[:-len('*decoded = p; return 0;')].strip(), DEC)
def prop_ops(t, templ):
    out = []
    while t:
        m = re.match(r'if \(flags & (AMQP_\w+_FLAG)\) \{ ', t)
        assert m, t[:100]
        # matching brace
        d, k = 1, m.end()
        while d: d += {'{':1,'}':-1}.get(t[k],0); k += 1
        ops = parse(t[m.end():k-1].strip(), templ, 'p')
        assert len(ops) == 1 and ops[0][0]=='field'
        out.append((m.group(1), ops[0])); t = t[k:].strip()
    return out
def prop_case_enc(label, txt):
    t = norm2(txt)
    m = re.match(r'(amqp_\w+_t) \*p = \((amqp_\w+_t) \*\)decoded; ', t)
    st=None
    if m: st=m.group(1); t=t[m.end():]
    assert t.endswith('return (int)offset;')
    return st, prop_ops(t[:-len('return (int)offset;')].strip(), ENC)
i, j, b = func('encp', 'int amqp_encode_properties(uint16_t class_id')
encplo, encphi = lineno(C, i), lineno(C, j) + 1
assert norm(b).endswith('default: return AMQP_STATUS_UNKNOWN_CLASS; } }')
encp = [(int(l),) + prop_case_enc(l, t) + (a, z) for l, t, a, z in cases(i, b)]
i, j, b = func('decp', 'int amqp_decode_properties(uint16_t class_id')
decplo, decphi = lineno(C, i), lineno(C, j) + 1
assert norm(b).endswith('default: return AMQP_STATUS_UNKNOWN_CLASS; } }')
decp = [(int(l),) + prop_case_dec(l, t) + (a, z) for l, t, a, z in cases(i, b)]
flagdef = {}
for m in re.finditer(r'#define (AMQP_BASIC_\w+_FLAG)\s*\\?\s*\(1 << (\d+)\)', H): flagdef[m.group(1)] = (int(m.group(2)), lineno(H, m.start()))

fields = []
for l, st, ops, *_ in dec + enc:
    for o in ops:
        for f in ([o[2]] if o[0]=='field' else [x for x, _ in o[1]]):
            if f not in fields: fields.append(f)
for _, _, ops, *_ in decp + encp:
    for _, o in ops:
        if o[2] not in fields: fields.append(o[2])
for l in ids:
    for nm, _ in structs[l.lower().replace('_method','_t')][0]:
        if nm != 'dummy' and nm not in fields: fields.append(nm)

CT = {'uint8_t':'octet','uint16_t':'short','uint32_t':'long','uint64_t':'longlong','amqp_bytes_t':'bytes','amqp_table_t':'table','amqp_boolean_t':'bool'}
def opL(o):
    if o[0]=='field': return f'.field .{o[1]} .{o[2]}'
    return '.bits [' + ', '.join(f'(.{a}, {b})' for a, b in o[1]) + ']'
def hx(n): return f'0x{n:08X}'
w = []
p = w.append
p('import Verif.Model.Methods0')
p('/-!\n# Method and property tables — GENERATED by scripts/genmethods.py from amqp_framing.c and framing.h\n')
p('One entry per `case` of the C switches; the script aborts on any statement it does not recognise, so nothing is dropped.\n-/')
p('namespace Rmq\n')
p(f'/-- amqp_method_name, librabbitmq/amqp_framing.c:{namelo}-{namehi}: the `case` labels (with their values from framing.h) and the strings. -/')
p('def nameTable : List (UInt32 × String) := [')
p(',\n'.join(f'  ({hx(ids[a])}, "{s}")' for a, s in names) + ']\n')
p(f'/-- amqp_method_has_content, librabbitmq/amqp_framing.c:{hclo}-{hchi}: the labels answering 1. -/')
p('def contentTable : List UInt32 := [' + ', '.join(hx(ids[a]) for a in hc) + ']\n')
p('/-- The method argument structs, include/rabbitmq-c/framing.h:150-783 (an empty struct has only the placeholder `char dummy`). -/')
p('def structTable : List (UInt32 × List (Fld × CType)) := [')
p(',\n'.join(f'  -- {l}: framing.h:{structs[l.lower().replace("_method","_t")][1]}-{structs[l.lower().replace("_method","_t")][2]}\n  ({hx(ids[l])}, [' + ', '.join(f'(.{n}, .{CT[t]})' for n, t in structs[l.lower().replace('_method','_t')][0] if n != 'dummy') + '])' for l in ids) + ']\n')
p(f'/-- amqp_encode_method, librabbitmq/amqp_framing.c:{encl0}-{encl1}: the body of each `case`. -/')
p('def encTableOps : List (UInt32 × List Op) := [')
p(',\n'.join(f'  -- {l}: amqp_framing.c:{a}-{z}\n  ({hx(ids[l])}, [' + ', '.join(map(opL, ops)) + '])' for l, st, ops, a, z in enc) + ']\n')
p(f'/-- amqp_decode_method, librabbitmq/amqp_framing.c:{declo}-{dechi}: the body of each `case`. -/')
p('def decTableOps : List (UInt32 × List Op) := [')
p(',\n'.join(f'  -- {l}: amqp_framing.c:{a}-{z}\n  ({hx(ids[l])}, [' + ', '.join(map(opL, ops)) + '])' for l, st, ops, a, z in dec) + ']\n')
def fl(x): return f'({flagdef[x[0]][0]}, .{x[1][1]}, .{x[1][2]})'
p(f'/-- amqp_encode_properties, librabbitmq/amqp_framing.c:{encplo}-{encphi}: per class the flag bit tested (framing.h:817-838), the type and the field. -/')
p('def encPropTable : List (UInt16 × List (Nat × FT × Fld)) := [')
p(',\n'.join(f'  -- amqp_framing.c:{a}-{z}\n  ({c}, [' + ', '.join(map(fl, ops)) + '])' for c, st, ops, a, z in encp) + ']\n')
p(f'/-- amqp_decode_properties, librabbitmq/amqp_framing.c:{decplo}-{decphi}. -/')
p('def decPropTable : List (UInt16 × List (Nat × FT × Fld)) := [')
p(',\n'.join(f'  -- amqp_framing.c:{a}-{z}\n  ({c}, [' + ', '.join(map(fl, ops)) + '])' for c, st, ops, a, z in decp) + ']\n')
p('end Rmq')
open('/verif/lean/Verif/Model/MethodTable.lean', 'w').write('\n'.join(w) + '\n')
w = []; p = w.append
print('FIELDS', ' '.join(fields)); print(len(ids), len(enc), len(dec), len(names))
print(structs['amqp_basic_properties_t'])
print(decp[5][:2])
open('/tmp/fields.txt','w').write(' '.join(fields))
