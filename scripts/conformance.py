#!/usr/bin/env python3
"""Run the model on the test data that /repo carries and compare with what its tests expect.

This is evidence that the model says what the code says; no theorem rests on it.  Three parts:
  * internal/card/testdata/*.b64 against *.golden.json, every leaf, and writing back what was read;
  * the table-driven tests of internal/dd (readers and round trips);
  * the real certificates of internal/security/testdata and internal/cert/certcache, the RSA ones
    verified against the embedded root with an executable SHA-1.
Run from /verif after `lake build`:  python3 scripts/conformance.py
"""
import base64, datetime, glob, json, os, re, subprocess, sys, tempfile

HERE = os.path.dirname(os.path.abspath(__file__))
LEAN = os.path.join(HERE, '..', 'lean')
REPO = '/repo/internal/'
sys.setrecursionlimit(100000)

# ---- the names and numbers of the enums, from the compiled descriptors
ns = {'__file__': os.path.join(HERE, 'descriptors.py')}
exec(open(os.path.join(HERE, 'descriptors.py')).read().split('bad = done')[0], ns)
ENUMS = {}
for p in glob.glob(ns['PB'] + '*/v1/*.pb.go'):
    b = ns['rawdesc'](p)
    if b:
        for n, vs in ns['enums'](b):
            for v in vs:
                ENUMS.setdefault(v[0], set()).add(v[1])

# ---- the Lean side
TABLES = 'def tableOf : Table → Array Nat\n' + ''.join(
    '  | .%s => #[%s]\n' % (n, ', '.join(str(ord(bytes([i]).decode(c, 'replace'))) for i in range(256)))
    for n, c in [('iso8859_%d' % i, 'iso8859_%d' % i) for i in (1, 2, 3, 5, 7, 9, 13, 15, 16)]
    + [('koi8r', 'koi8_r'), ('koi8u', 'koi8_u')])
TMP = tempfile.mkdtemp()
lean = ['''import Verif.Model.File
import Verif.Model.Security
open Tacho
set_option maxRecDepth 100000
''' + TABLES + '''instance : Charmap := ⟨fun t s => s.flatMap (fun b => String.utf8EncodeChar (Char.ofNat ((tableOf t).getD b.toNat 0)))⟩
deriving instance Repr for Res
def rotl (x : UInt32) (n : UInt32) : UInt32 := (x <<< n) ||| (x >>> (32 - n))
def sha1impl (d : Bytes) : Bytes := Id.run do
  let padded := d ++ [0x80] ++ zeros ((119 - d.length % 64) % 64) ++ beBytes 8 (8 * d.length)
  let a := padded.toArray
  let mut h : Array UInt32 := #[0x67452301, 0xEFCDAB89, 0x98BADCFE, 0x10325476, 0xC3D2E1F0]
  for blk in [0:a.size / 64] do
    let mut w : Array UInt32 := #[]
    for t in [0:16] do
      let at' := fun (i : Nat) => (a[blk * 64 + 4 * t + i]!).toUInt32
      w := w.push ((at' 0 <<< 24) ||| (at' 1 <<< 16) ||| (at' 2 <<< 8) ||| at' 3)
    for t in [16:80] do
      w := w.push (rotl (w[t-3]! ^^^ w[t-8]! ^^^ w[t-14]! ^^^ w[t-16]!) 1)
    let mut v := h
    for t in [0:80] do
      let b := v[1]!; let c := v[2]!; let e := v[3]!
      let (f, k) : UInt32 × UInt32 :=
        if t < 20 then ((b &&& c) ||| ((~~~b) &&& e), 0x5A827999)
        else if t < 40 then (b ^^^ c ^^^ e, 0x6ED9EBA1)
        else if t < 60 then ((b &&& c) ||| (b &&& e) ||| (c &&& e), 0x8F1BBCDC)
        else (b ^^^ c ^^^ e, 0xCA62C1D6)
      v := #[rotl v[0]! 5 + f + v[4]! + k + w[t]!, v[0]!, rotl v[1]! 30, v[2]!, v[3]!]
    h := #[h[0]! + v[0]!, h[1]! + v[1]!, h[2]! + v[2]!, h[3]! + v[3]!, h[4]! + v[4]!]
  return h.toList.flatMap (fun x => beBytes 4 x.toNat)
instance : Crypto where
  sha1 d := (List.range 20).map (fun i => (sha1impl d).getD i 0)
  sha1_length d := by simp
  sha256 := fun _ => []
  sha384 := fun _ => []
  sha512 := fun _ => []
  ecdsaVerify := fun _ _ _ _ _ _ => none
def rsaRun (cert root : Bytes) : Res RsaCert := do
  let c ← unmarshalRsa cert
  let r ← unmarshalRoot root
  match verifyRsaWithRoot (some c) (some r) with
  | (some c, .ok ()) => .ok c
  | (_, .err e) => .err e
  | _ => .panic
def load (p : String) : IO Bytes := do return (← IO.FS.readBinFile p).toList
def say {α} [Repr α] (n : String) (x : Res α) : IO Unit :=
  IO.println s!"@@{n}\\n{(repr x).pretty 100000000}"''']
jobs = {}


def job(name, expr, check):
    jobs[name] = check
    lean.append('#eval do say "%s" (%s)' % (name, expr))


def lb(b):
    return '([' + ', '.join(str(x) for x in b) + '] : Bytes)'


# ---- reading Lean's printed values
def parse(s):
    tok = re.findall(r'[{}\[\](),]|:=|"(?:[^"\\]|\\.)*"|[^\s{}\[\](),]+', s)
    i = 0

    def val():
        nonlocal i
        t = tok[i]
        if t == '{':
            i += 1
            d = {}
            while tok[i] != '}':
                k = tok[i]
                assert tok[i + 1] == ':='
                i += 2
                d[k] = app()
                if tok[i] == ',':
                    i += 1
            i += 1
            return d
        if t == '[':
            i += 1
            l = []
            while tok[i] != ']':
                l.append(app())
                if tok[i] == ',':
                    i += 1
            i += 1
            return l
        if t == '(':
            i += 1
            l = [app()]
            while tok[i] == ',':
                i += 1
                l.append(app())
            assert tok[i] == ')'
            i += 1
            return l[0] if len(l) == 1 else tuple(l)
        i += 1
        return int(t) if re.fullmatch(r'-?\d+', t) else t

    def app():
        v = val()
        if v == 'none':
            return None
        if v == 'some':
            return val()
        if isinstance(v, str) and v.endswith('Res.ok'):
            return ('ok', {'none': None, 'true': True, 'false': False}.get(x, x) if isinstance(x := val(), str) else x)
        if isinstance(v, str) and v.endswith('Res.err'):
            return ('err', val())
        return {'true': True, 'false': False}.get(v, v) if isinstance(v, str) else v
    return app()


# ---- comparing a model value with protobuf JSON
leaves = 0
NAMES = {'newest': ('newestRecordIndex', 'vehicleUnitPointerNewestRecord'),
         'registration': ('vehicleRegistration',), 'geo': ('geoCoordinates',),
         'accuracy': ('gnssAccuracy',), 'issuingState': ('cardIssuingMemberState',),
         'cardType': ('typeOfTachographCardId',), 'structureVersion': ('cardStructureVersion',)}


def eq(l, j, path, bad):
    global leaves
    if isinstance(l, dict) and set(l) == {'seconds', 'nanos'}:
        leaves += 1
        t = j and datetime.datetime.fromisoformat(j.replace('Z', '+00:00')).timestamp()
        if t != l['seconds']:
            bad.append((path, l, j))
        return
    if isinstance(l, dict):
        if 'base' in l:
            l = {**l['base'], **{k: v for k, v in l.items() if k != 'base'}}
        j = j or {}
        if not isinstance(j, dict):
            bad.append((path, l, j))
            return
        used, names = set(), {}
        for exact in (True, False):
            for k in l:
                if names.get(k):
                    continue
                cands = [a.lower() for a in NAMES.get(k, ())] + [k.lower()]
                c = [a for a in j if a not in used and a.lower() in cands]
                if not exact:
                    for test in (lambda a, n: a.endswith(n), lambda a, n: n in a,
                                 lambda a, n: a.startswith(n[:5])):
                        if len(c) != 1:
                            c = [a for a in j if a not in used and test(a.lower(), k.lower())]
                if len(c) == 1:
                    names[k] = c[0]
                    used.add(c[0])
        for k in l:
            # the anonymised golden files drop the raw bytes of some records and keep those of others
            if k == 'rawData' and (names.get(k) is None or l[k] is None):
                used.add('rawData')
                continue
            eq(l[k], j.get(names.get(k)), path + '.' + k, bad)
        for a in j:
            # the model says "driver card" by the presence of the driver's counts
            if a == 'cardType' and j[a] == 'DRIVER_CARD' and l.get('driver'):
                continue
            if a not in used and j[a] not in ('', [], {}):
                bad.append((path + '.' + a, 'not in the model', str(j[a])[:60]))
        return
    leaves += 1
    if isinstance(l, list):
        if isinstance(j, str):
            b = bytes(l)
            try:
                ok = b == j.encode() or b == base64.b64decode(j)
            except Exception:
                ok = False
            if not ok:
                bad.append((path, l, j))
            return
        j = j or []
        if len(l) != len(j):
            bad.append((path, len(l), len(j)))
            return
        for n, (x, y) in enumerate(zip(l, j)):
            eq(x, y, path + '[%d]' % n, bad)
        return
    if l is None or isinstance(l, bool):
        if bool(l) != bool(j):
            bad.append((path, l, j))
        return
    if isinstance(l, int):
        if isinstance(j, str) and l in ENUMS.get(j, ()):
            return
        if l != int(j or 0):
            bad.append((path, l, j))
        return
    if l.split('.')[-1].lower() != str(j).lower().replace('_', ''):
        bad.append((path, l, j))


# ---- card files
T = REPO + 'card/testdata/'
CARD = [('icc', 'unmarshalIcc', 'appendIcc [] v'), ('ic', 'unmarshalIc', 'appendCardIc [] (some v)'),
        ('application_identification', 'unmarshalAppId', 'appendAppId [] (some v)'),
        ('control_activity', 'unmarshalControlActivity', 'appendControlActivity [] (some v)'),
        ('current_usage', 'unmarshalCurrentUsage', 'appendCurrentUsage [] (some v)'),
        ('driving_licence', 'unmarshalDrivingLicenceInfo', 'appendDrivingLicenceInfo [] (some v)'),
        ('events', 'unmarshalEventsData', 'appendEventsData [] v'),
        ('faults', 'unmarshalEventsData', 'appendEventsData [] v'),
        ('gnss_places', 'unmarshalGnssPlaces', 'appendGnssPlaces [] (some v)'),
        ('identification', 'unmarshalIdentification', 'appendIdentification [] v'),
        ('places', 'unmarshalPlaces', 'appendPlaces [] (some v)'),
        ('places_g2', 'unmarshalPlacesG2', 'appendPlacesG2 [] (some v)'),
        ('specific_conditions', 'unmarshalSpecificConditions', 'appendSpecificConditions [] (some v)'),
        ('specific_conditions_g2', 'unmarshalSpecificConditionsG2', 'appendSpecificConditionsG2 [] (some v)'),
        ('vehicle_units_used', 'unmarshalVehicleUnitsUsed', 'appendVehicleUnitsUsed [] (some v)'),
        ('vehicles', 'unmarshalVehiclesUsed', 'appendVehiclesUsed [] (some v)'),
        ('activity', 'unmarshalDriverActivityData', 'appendDriverActivity [] (some v)')]


def golden(name):
    path = T + name + '.golden.json'

    def check(v):
        if v[0] != 'ok':
            return [(name, v, 'accepted')]
        if not os.path.exists(path):
            return []
        v, bad = v[1], []
        if isinstance(v, list):
            v = {name: v}
        if isinstance(v, tuple):
            v = {'newest': v[0], 'records': v[1]}
        eq(v, json.load(open(path)), name, bad)
        return bad
    return check


for n, f, w in CARD:
    data = base64.b64decode(open(T + n + '.b64').read())
    p = os.path.join(TMP, n + '.bin')
    open(p, 'wb').write(data)
    job('card ' + n, '%s (← load "%s")' % (f, p), golden(n))
    job('card round trip ' + n, '%s (← load "%s") >>= fun v => %s' % (f, p, w),
        lambda v, d=data, n=n: [] if v == ('ok', list(d)) else [(n, 'written back', 'differs')])

# ---- internal/dd tables
DD = {'BcdString': ('bcd_string', 'unmarshalBcdString x', 'appendBcdString [] (some v)'),
      'ControlType': ('controltype', 'unmarshalControlType x', 'appendControlType [] v'),
      'Date': ('date', 'unmarshalDate x', 'appendDate [] v'),
      'EquipmentType': ('equipment_type', 'unmarshalEnum equipmentTypeTable (x.getD 0 0)',
                        'marshalEnum equipmentTypeTable v >>= fun b => .ok [b]'),
      'ExtendedSerialNumber': ('extended_serial_number', 'unmarshalExtendedSerialNumber x',
                               'appendExtendedSerialNumber [] (some v)'),
      'MonthYear': ('month_year', 'unmarshalMonthYear x', 'appendMonthYear [] v'),
      'Odometer': ('odometer', 'unmarshalOdometer x', '.ok (appendOdometer [] v)'),
      'StringValue': ('string_value', 'unmarshalStringValue x', 'appendStringValue [] (some v)'),
      'IA5StringValue': ('string_value', 'unmarshalIa5StringValue x', 'appendIa5StringValue [] (some v)'),
      'TimeReal': ('time_real', 'unmarshalTimeReal x', 'appendTimeReal [] v'),
      'VehicleRegistration': ('vehicle_registration', 'unmarshalVehicleRegistration x',
                              'appendVehicleRegistration [] (some v)')}
WANT = {'wantEncoded': 'rawData', 'wantDecoded': 'value', 'wantNation': 'nation', 'wantRegNumber': 'number.value',
        'wantMonth': 'month', 'wantYear': 'year', 'wantUnix': 'seconds', 'wantEquipmentType': 'type'}


def gobytes(s):
    s = re.sub(r'//.*', '', s).strip()
    if s.startswith('('):
        return json.loads(s[1:s.rindex(')')]).encode()
    one = lambda x: ord(x[1]) if x[0] == "'" else int(x, 0)
    return bytes(sum(one(y.strip()) for y in x.split('|')) for x in s.strip('{}').split(',') if x.strip())


def goval(s):
    s = s.strip().rstrip(',')
    if s.startswith('[]byte'):
        return list(gobytes(s[6:]))
    if s.startswith('"'):
        return list(json.loads(s).encode())
    if s in ('true', 'false'):
        return s == 'true'
    if s == 'nil':
        return None
    m = re.fullmatch(r'ddv1\.[A-Za-z]+?_([A-Z0-9_]+)', s) or re.fullmatch(r'ddv1\.\w+?_(\w+)', s)
    if m:
        return ENUMS[m.group(1)]
    return int(s, 0)


def dig(v, path):
    for k in path.split('.'):
        if isinstance(v, dict) and k not in v and 'monthYear' in v:
            v = v['monthYear']
        v = v.get(k) if isinstance(v, dict) else v
    return v


def ddcheck(name, want):
    def check(v):
        if want.get('wantErr'):
            return [] if v[0] == 'err' else [(name, v, 'an error')]
        # the test itself turns the error into UNRECOGNIZED
        if v[0] == 'err' and want.get('want') == ENUMS['EQUIPMENT_TYPE_UNRECOGNIZED']:
            return []
        if v[0] != 'ok':
            return [(name, v, want)]
        bad = []
        for k, w in want.items():
            if k in ('wantErr',):
                continue
            if k == 'wantIsNil':
                if w and v[1] is not None:
                    bad.append((name, v, k))
                continue
            if want.get('wantIsNil'):
                continue
            f = WANT.get(k, k[4:5].lower() + k[5:])
            g = dig(v[1], f) if f else v[1]
            if isinstance(g, dict) and not f:
                g = g.get('value', g)
            ok = g in w if isinstance(w, set) else (g or 0) == (w or 0) if not isinstance(w, list) else (g or []) == w
            if not ok:
                bad.append((name + ' ' + k, g, w))
        return bad
    return check


cases = 0
for typ, (file, rd, wr) in DD.items():
    src = open(REPO + 'dd/' + file + '_test.go').read()
    for fn, rt in (('TestUnmarshal' + typ, False), ('Test' + typ + 'RoundTrip', True)):
        m = re.search(r'func %s\(t.*?^\t}{\n(.*?)^\t}\n' % fn, src, re.S | re.M)
        if not m:
            sys.exit('no table in ' + fn)
        for ent in re.findall(r'^\t\t{\n(.*?)^\t\t},', m.group(1), re.S | re.M) + \
                re.findall(r'^\t\t{(name:.*)},$', m.group(1), re.M):
            fields = dict(re.findall(r'(\w+):\s*((?:\[\]byte\{[^}]*\})|(?:\[\]byte\([^)]*\))|(?:"(?:[^"\\]|\\.)*")|[^,\n]+)', ent))
            if not fields.get('input', '').startswith('[]byte'):
                continue
            cases += 1
            data = gobytes(fields['input'][6:])
            nm = '%s %s' % (fn, fields['name'].strip('"'))
            nm = nm.replace('"', "'").replace('\\', '')
            if rt:
                job(nm, '%s >>= fun v => %s' % (rd.replace('x.', lb(data) + '.').replace(' x', ' ' + lb(data)), wr),
                    lambda v, d=data, nm=nm: [] if v == ('ok', list(d)) else [(nm, v, list(d))])
            else:
                want = {k: goval(x) for k, x in fields.items() if k.startswith('want')}
                if typ == 'EquipmentType' and not data:
                    continue
                job(nm, rd.replace('x.', lb(data) + '.').replace(' x', ' ' + lb(data)), ddcheck(nm, want))

# ---- certificates
ROOT = REPO + 'cert/certcache/root/EC_PK.bin'
CERT = REPO + 'security/testdata/certs/'


def text(v):
    return bytes(v).decode()


def rsacheck(chr_):
    def check(v):
        ok = v[0] == 'ok' and text(v[1]['chr']) == chr_ and v[1]['valid'] and len(v[1]['modulus']) == 128
        return [] if ok else [(chr_, str(v)[:200], 'verified with this holder')]
    return check


for file, chr_ in re.findall(r'filename:\s*"testdata/certs/(g1/\S+)",\n\s*expectedCAR:.*\n\s*expectedCHR:\s*"(\d+)"',
                             open(REPO + 'security/rsa_certificate_test.go').read()):
    job('rsa ' + file,
        'rsaRun (← load "%s") (← load "%s")' % (CERT + file, ROOT), rsacheck(chr_))
    # one changed byte of the signed part
    job('rsa changed ' + file,
        'rsaRun ((← load "%s").set 140 7) (← load "%s")' % (CERT + file, ROOT),
        lambda v: [] if v[0] == 'err' else [('changed certificate', v, 'refused')])
for file, car, chr_ in re.findall(
        r'filename:\s*"testdata/certs/(g2/\S+)",\n\s*expectedCAR:\s*"(\d+)".*\n\s*expectedCHR:\s*"(\d+)"',
        open(REPO + 'security/ecc_certificate_test.go').read()):
    job('ecc ' + file, 'unmarshalEcc (← load "%s")' % (CERT + file),
        lambda v, car=car, chr_=chr_: [] if v[0] == 'ok' and (text(v[1]['car']), text(v[1]['chr'])) == (car, chr_)
        and v[1]['profile'] == 0 else [(chr_, str(v)[:300], car)])
    job('ecc round trip ' + file, 'unmarshalEcc (← load "%s") >>= fun v => appendEcc [] (some v)' % (CERT + file),
        lambda v, f=file: [] if v == ('ok', list(open(CERT + f, 'rb').read())) else [(f, str(v)[:80], 'the file')])

# ---- run
src = os.path.join(TMP, 'T.lean')
open(src, 'w').write('\n'.join(lean) + '\n')
if '--keep' in sys.argv:
    print(src)
out = subprocess.run(['lake', 'env', 'lean', src], cwd=LEAN, capture_output=True, text=True).stdout
cur, bad, seen = None, [], set()
for line in out.split('\n'):
    if line.startswith('@@'):
        cur = line[2:]
    elif cur is not None:
        seen.add(cur)
        bad += jobs[cur](parse(line))
        cur = None
    elif line.strip():
        bad.append(('lean', line[:300], ''))
bad += [(n, 'no answer', '') for n in jobs if n not in seen]
for b in bad:
    print('DIFFERS', *[str(x)[:200] for x in b])
print('%d runs of the model, %d of them from the dd tables, %d leaves of the golden files, %d differences'
      % (len(seen), cases, leaves, len(bad)))
sys.exit(bool(bad))
