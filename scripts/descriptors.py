#!/usr/bin/env python3
"""Compares the tables of the model (Model/Enums.lean, Model/EnumNames.lean, Model/CardTables.lean) with the
descriptors that are compiled into the generated Go code in /repo. Prints every difference, and a summary.
This is a check of the transcription of tables, not part of any proof."""
import glob, os, re, sys

ROOT = os.path.dirname(os.path.dirname(os.path.abspath(__file__)))
PB = '/repo/proto/gen/go/wayplatform/connect/tachograph/'

def rawdesc(path):
    src=open(path,encoding='utf8').read()
    m=re.search(r'_rawDesc = ""((?: \+\n\t"(?:[^"\\]|\\.)*")+)',src)
    if not m: return None
    out=bytearray()
    for lit in re.findall(r'"((?:[^"\\]|\\.)*)"',m.group(1)):
        i=0
        while i<len(lit):
            c=lit[i]
            if c=='\\':
                d=lit[i+1]
                if d=='x': out.append(int(lit[i+2:i+4],16)); i+=4; continue
                if d=='u': out+=chr(int(lit[i+2:i+6],16)).encode(); i+=6; continue
                if d=='U': out+=chr(int(lit[i+2:i+10],16)).encode(); i+=10; continue
                if d in '01234567': out.append(int(lit[i+1:i+4],8)); i+=4; continue
                out.append({'a':7,'b':8,'f':12,'n':10,'r':13,'t':9,'v':11,'\\':92,'"':34}[d]); i+=2
            else: out+=c.encode(); i+=1
    return bytes(out)
def fields(b):
    i=0; res=[]
    def vi():
        nonlocal i
        r=s=0
        while True:
            x=b[i]; i+=1; r|=(x&127)<<s; s+=7
            if x<128: return r
    while i<len(b):
        k=vi(); f,w=k>>3,k&7
        if w==0: res.append((f,vi()))
        elif w==2:
            n=vi(); res.append((f,b[i:i+n])); i+=n
        elif w==5: res.append((f,b[i:i+4])); i+=4
        elif w==1: res.append((f,b[i:i+8])); i+=8
        else: raise Exception(w)
    assert i==len(b)
    return res
def enums(b):
    for f,v in fields(b):
        if f==5:
            e=fields(v); name=[x for k,x in e if k==1][0].decode()
            vals=[]
            for k,x in e:
                if k==2:
                    y=fields(x); d={}
                    for kk,vv in y: d.setdefault(kk,[]).append(vv)
                    opts=[o for p in d.get(3,[]) for o in fields(p)]
                    vals.append((d[1][0].decode(),d.get(2,[0])[0],opts))
            yield name,vals

def read(name):
    return open(os.path.join(ROOT, 'lean/Verif/Model', name)).read()

bad = done = 0
tables, names = read('Enums.lean'), read('EnumNames.lean')
for path in sorted(glob.glob(PB + 'dd/v1/*.pb.go')):
    for name, values in enums(rawdesc(path)):
        low = name[0].lower() + name[1:]
        m = re.search(r'def ' + low + r'Table : EnumTable :=\s+\[([^\]]*)\]', tables)
        k = re.search(r'def ' + low + r'Names : EnumNames :=\s+\[([^\]]*)\]', names)
        if m:
            got = [(int(a), None if x == 'none' else int(x.split()[1])) for a, x in re.findall(r'\((\d+), (none|some \d+)\)', m.group(1))]
            want = [(v[1], dict(v[2]).get(582387, dict(v[2]).get(582388))) for v in values]
            done += 1
            if got != want:
                bad += 1
                print('values differ:', name)
        if k:
            got = [(int(a), x) for a, x in re.findall(r'\((\d+), "(\w+)"\)', k.group(1))]
            done += 1
            if got != [(v[1], v[0]) for v in values]:
                bad += 1
                print('names differ:', name)
        if not m and not k:
            print('not in the model:', name)

files = {v[1]: v[0] for n, vs in enums(rawdesc(PB + 'card/v1/elementary_file_type.pb.go')) for v in vs}

def flat(d):
    out, fs = [], fields(d)
    t = dict((k, x) for k, x in fs if k in (1, 2))
    if t.get(1) == 3:
        out.append(files[t.get(2, 0)])
    for k, x in fs:
        if k == 4:
            out += flat(x)
    return out

def camel(s):
    s = s.replace('EF_', '', 1).lower().split('_')
    return s[0] + ''.join(x.capitalize() for x in s[1:])

rows = re.findall(r'\(\.(\w+),\s+\[([^\]]*)\]\)', read('CardTables.lean'))
for n, vs in enums(rawdesc(PB + 'card/v1/card_type.pb.go')):
    if len(vs) != len(rows):
        bad += 1
        print('card types differ')
    for v, (ln, lf) in zip(vs, rows):
        got = [camel(x) for x in flat(v[2][0][1])] if v[2] else []
        done += 1
        if got != [x.strip()[1:] for x in lf.split(',') if x.strip()]:
            bad += 1
            print('files differ:', v[0], ln)
print('tables', done, 'different', bad)
