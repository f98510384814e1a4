#!/usr/bin/env python3
"""Translates src/events/*.c of /repo to the table of lean/Verif/Model/EventTable.lean.

Every statement of every send function is translated by one of the patterns below; the script stops at anything it does not know.  The signatures (parameter types,
"(optional)" in the documentation) are taken from the declarations and their comments only, the bodies from the statements only."""
import re, glob, os, sys, collections
REPO = '/repo/src/'
consts = {}
lines_of = {}
types = collections.OrderedDict()   # module -> list of (name, value)
for f in ['vscp_class_l1.h'] + sorted(os.path.basename(x) for x in glob.glob(REPO + 'vscp_type_*.h')):
    for m in re.finditer(r'^#define\s+(VSCP_(?:CLASS|TYPE)_\w+)\s+(\d+)\s*$', open(REPO + f, errors='replace').read(), re.M):
        assert consts.get(m.group(1), int(m.group(2))) == int(m.group(2)), m.group(1)
        consts[m.group(1)] = int(m.group(2))
        if f.startswith('vscp_type_'):
            types.setdefault(f[len('vscp_type_'):-2], []).append((m.group(1), int(m.group(2))))

TY = {'uint8_t': 'u8', 'int8_t': 'i8', 'uint16_t': 'u16', 'uint32_t': 'u32', 'int32_t': 'i32', 'float_t': 'f32', 'double_t': 'f64'}
PTR = {'uint8_t const * const': 'opt8', 'uint16_t const * const': 'opt16', 'uint32_t const * const': 'opt32'}

def params(args, doc, name):
    out = []; names = []
    ps = [] if args.strip() == 'void' else [a.strip() for a in args.split(',')]
    for p in ps:
        names.append(p.split()[-1])
    for i, p in enumerate(ps):
        ty = ' '.join(p.split()[:-1]); nm = names[i]
        if ty in TY:
            if i > 0 and nm == names[i-1] + 'Size' and out[-1] in ('arr', 'optArr'):
                out.append('len')
            else:
                out.append(TY[ty])
        else:
            assert ty in PTR, (name, p)
            m = re.search(r'@param\[in\]\s+' + nm + r'\b(.*?)(?=@param|@return)', doc, re.S)
            assert m, (name, nm)
            optional = '(optional)' in m.group(1)
            if i + 1 < len(ps) and names[i+1] == nm + 'Size':
                out.append('optArr' if optional else 'arr')
            else:
                assert optional, (name, nm)
                out.append(PTR[ty])
    return names, out

def body(b, names, name):
    b = re.sub(r'/\*.*?\*/', '', b, flags=re.S)
    for i, nm in enumerate(names):
        b = re.sub(r'(?<![.\w])' + nm + r'\b', '@%d' % i, b)
    b = re.sub(r'\s+', ' ', b).strip()
    out = []; cls = typ = None
    def eat(pat):
        nonlocal b
        m = re.match(pat, b)
        if m: b = b[m.end():].lstrip()
        return m
    assert eat(r'vscp_TxMessage txMsg;')
    local = bool(eat(r'uint8_t size = 0;'))
    eat(r'uint8_t byteIndex = 0;')
    LOOP = r'for\(byteIndex = 0; byteIndex < @(\d+); \+\+byteIndex\) \{ txMsg\.data\[(\d+) \+ byteIndex\] = @(\d+)\[byteIndex\]; size \+= 1; if \(VSCP_L1_DATA_SIZE <= size\) \{ break; \} \}'
    stored = False; sized = False
    while b:
        m = eat(r'if \(\(NULL == @(\d+)\) \|\| \(0 == @(\d+)\)\) \{ return FALSE; \}')
        if m:
            assert cls is None
            out.append('.need %s %s' % m.groups()); continue
        m = eat(r'vscp_core_prepareTxMessage\(&txMsg, (\w+), (\w+), VSCP_PRIORITY_3_NORMAL\);')
        if m:
            cls, typ = m.groups(); continue
        assert cls is not None, (name, b)
        m = eat(r'txMsg\.data\[(\d+)\] = @(\d+);')
        if m: out.append('.byte %s %s 0' % m.groups()); continue
        m = eat(r'txMsg\.data\[(\d+)\] = \(uint8_t\)\(\(@(\d+) >> (\d+)\) & 0xff\);')
        if m: out.append('.byte %s %s %s' % m.groups()); continue
        m = eat(r'txMsg\.data\[(\d+)\] = \(\(uint8_t\*\)&@(\d+)\)\[(\d+)\];')
        if m: out.append('.mem %s %s %s' % m.groups()); continue
        m = eat(r'size \+= (\d+);')
        if m:
            assert local
            out.append('.size %s' % m.group(1)); continue
        m = eat(r'txMsg\.dataSize = (\d+);')
        if m:
            assert not local and not sized
            sized = True
            if int(m.group(1)): out.append('.size %s' % m.group(1))
            continue
        m = eat(r'txMsg\.data\[(\d+)\] = vscp_data_coding_getFormatByte\(VSCP_DATA_CODING_REPRESENTATION_NORMALIZED_INTEGER, @(\d+), @(\d+)\);')
        if m: out.append('.format %s %s %s' % m.groups()); continue
        m = eat(r'txMsg\.dataSize \+= vscp_data_coding_int32ToNormalizedInteger\(@(\d+), @(\d+), &txMsg\.data\[(\d+)\], VSCP_L1_DATA_SIZE - txMsg\.dataSize\);')
        if m:
            assert not local and sized
            out.append('.norm %s %s %s' % (m.group(3), m.group(1), m.group(2))); continue
        m = eat(LOOP)
        if m: out.append('.loop %s %s %s' % (m.group(2), m.group(3), m.group(1))); continue
        m = eat(r'if \(NULL != @(\d+)\) \{ ' + LOOP + r' \}')
        if m:
            assert m.group(1) == m.group(4)
            out.append('.optLoop %s %s %s' % (m.group(3), m.group(4), m.group(2))); continue
        m = eat(r'if \(NULL != @(\d+)\) \{ ')
        if m:
            p = m.group(1); l = []
            while True:
                m = eat(r'txMsg\.data\[(\d+)\] = \*@(\d+);')
                if m:
                    assert m.group(2) == p; l.append((m.group(1), '0')); continue
                m = eat(r'txMsg\.data\[(\d+)\] = \(uint8_t\)\(\(\*@(\d+) >> (\d+)\) & 0xff\);')
                if m:
                    assert m.group(2) == p; l.append((m.group(1), m.group(3))); continue
                break
            m = eat(r'size \+= (\d+); \}')
            assert m, (name, b)
            out.append('.opt %s [%s] %s' % (p, ', '.join('(%s, %s)' % x for x in l), m.group(1))); continue
        m = eat(r'txMsg\.dataSize = size;')
        if m:
            assert local
            stored = True; continue
        m = eat(r'return vscp_core_sendEvent\(&txMsg\);')
        if m:
            assert b == '' and (stored if local else sized), (name, b)
            break
        raise Exception((name, b))
    return cls, typ, out

mods = collections.OrderedDict()
for f in sorted(glob.glob(REPO + 'events/*.c')):
    s = open(f, errors='replace').read()
    mod = os.path.basename(f)[len('vscp_evt_'):-2]
    n = len(re.findall(r'^extern ', s, re.M))
    for m in re.finditer(r'/\*\*((?:(?!\*/).)*)\*/\s*\nextern BOOL (\w+)\(([^)]*)\)\s*\n\{(.*?)^\}', s, re.S | re.M):
        doc, name, args, b = m.groups()
        a = s[:m.start(2)].count('\n') + 1
        e = s[:m.end()].count('\n') + 1
        names, sig = params(args, doc, name)
        cls, typ, st = body(b, names, name)
        mods.setdefault(mod, []).append((name, a, e, sig, cls, typ, st))
    assert len(mods[mod]) == n, (f, n)

def camel(m): 
    p = m.split('_'); return p[0] + ''.join(x.capitalize() for x in p[1:])

if __name__ == '__main__':
    if len(sys.argv) > 1:
        shapes = collections.Counter((tuple(x[3]), tuple(x[6])) for l in mods.values() for x in l)
        for k, v in shapes.most_common(): print(v, k)
        for mod, l in mods.items():
            tn = {'measurezone': 'measurezone', 'ir': 'remote'}.get(mod, mod)
            decl = types.get(mod) or types.get(tn) or []
            print(mod, set(x[4] for x in l), [consts[x[4]] for x in l[:1]], len(l), len(decl), 'same order' if [consts[x[5]] for x in l] == [v for _, v in decl] else 'DIFF',
              set(v for _, v in decl) - set(consts[x[5]] for x in l), [k for k, v in collections.Counter(x[5] for x in l).items() if v > 1])
        sys.exit()
    out = ['/-', 'The send functions of src/events.  Generated by tools/gen_events.py from src/events/*.c, src/vscp_class_l1.h and src/vscp_type_*.h; do not edit.', '-/',
           'import Verif.Model.Events', '', 'namespace Vscp.Events.Table', '']
    for mod, l in mods.items():
        out.append('/-- src/events/vscp_evt_%s.c: all send functions -/' % mod)
        out.append('def %s : List Fn := [' % camel(mod))
        for k, (name, a, e, sig, cls, typ, st) in enumerate(l):
            st = [(x + ' ' + ('true' if sig[int(x.split()[2])] == 'f64' else 'false')) if x.startswith('.mem') else x for x in st]
            out.append('  /- src/events/vscp_evt_%s.c:%d-%d `%s` -/' % (mod, a, e, name))
            out.append('  ⟨"%s", %d, %d, [%s], [%s]⟩%s' % (name[len('vscp_evt_'):], consts[cls], consts[typ], ', '.join('.' + x for x in sig), ', '.join(st), ',' if k + 1 < len(l) else ']'))
        out.append('')
    out.append('/-- src/events/*.c: the modules in alphabetical order -/')
    out.append('def modules : List (String × List Fn) := [')
    out += ['  ("%s", %s)%s' % (m, camel(m), ',' if i + 1 < len(mods) else ']') for i, m in enumerate(mods)]
    out += ['', 'end Vscp.Events.Table', '']
    open('/verif/lean/Verif/Model/EventTable.lean', 'w').write('\n'.join(out))
    out = ['/-', 'The classes of src/vscp_class_l1.h and the event types of src/vscp_type_*.h which belong to the modules of src/events.  Generated by tools/gen_events.py from these headers',
           '(not from the send functions); do not edit.', '-/', 'import Verif.Model.Basic', '', 'namespace Vscp.Spec.Evt', '',
           '/-- Name of the class, class number (src/vscp_class_l1.h), types declared for it (src/vscp_type_*.h). -/', 'def classes : List (String × Nat × List Nat) := [']
    for i, mod in enumerate(mods):
        out.append('  ("%s", %d, [%s])%s' % (mod, consts['VSCP_CLASS_L1_' + mod.upper()], ', '.join(str(v) for _, v in types[mod]), ',' if i + 1 < len(mods) else ']'))
    out += ['', 'end Vscp.Spec.Evt', '']
    open('/verif/lean/Verif/Spec/EventTypes.lean', 'w').write('\n'.join(out))
