"""Try wrong programs.

Usage: python3 tools/mutate.py MUTANTS.json [name ...]

MUTANTS.json is a list of {"name", "file", "old", "new", "claim"}.  Each one is applied to a scratch copy of lean/ in
/root/mut/copy; every module that depends on the edited file is elaborated again, keeping theorems whose proof fails as
`sorry`, and the theorems named C.._ that then fail or depend on a failed proof are listed.  A list of the failed
declarations and of these theorems goes to /root/mut/out/NAME.json.  MUTATE_SKIP names modules to leave as they are.
"""
import json, os, re, shutil, subprocess, sys, time
from concurrent.futures import ThreadPoolExecutor

SRC = os.environ.get('MUTATE_SRC', '/verif/lean')
DIR = '/root/mut'
COPY = DIR + '/copy'
OUT = DIR + '/out'

DRIVER = r'''
import Lean
open Lean Elab

def enclosing (starts : Array (Nat × Name)) (line : Nat) : Name :=
  (starts.foldl (fun acc (l, n) => if l ≤ line then n else acc) `none)

unsafe def main (args : List String) : IO UInt32 := do
  let [modName, file, out] := args | return 2
  initSearchPath (← findSysroot)
  enableInitializersExecution
  let input ← IO.FS.readFile file
  let ctx := Parser.mkInputContext input file
  let (header, ps, msgs) ← Parser.parseHeader ctx
  let (env, msgs) ← processHeader header {} msgs ctx (mainModule := modName.toName)
  let s ← IO.processCommands ctx ps (Command.mkState env msgs {})
  for m in s.commandState.messages.toList do
    if m.severity == .error then
      IO.println s!"ERR {m.pos.line} {(← m.data.toString).replace "\n" " " |>.take 160}"
  writeModule s.commandState.env out
  return 0
'''

AXIOMS = r'''
import Lean
import Verif
open Lean Elab Command
run_cmd do
  let env ← getEnv
  for (n, _) in env.constants.map₁.toList do
    if (`Verif.Props).isPrefixOf n && !n.isInternal && (n.getString!.startsWith "C") then
      let ax ← liftCoreM <| collectAxioms n
      if ax.contains ``sorryAx then logInfo m!"SORRY {n}"
'''

def modules():
    mods = {}
    for base, _, files in os.walk(COPY + '/Verif'):
        for f in files:
            if f.endswith('.lean'):
                path = os.path.join(base, f)
                name = os.path.relpath(path, COPY)[:-5].replace('/', '.')
                deps = re.findall(r'^import (Verif\.\S+)', open(path).read(), re.M)
                mods[name] = (path, deps)
    path = COPY + '/Verif.lean'
    mods['Verif'] = (path, re.findall(r'^import (Verif\.\S+)', open(path).read(), re.M))
    return mods

def olean(name):
    return COPY + '/.lake/build/lib/lean/' + name.replace('.', '/') + '.olean'

ENV = None
def env():
    global ENV
    if ENV is None:
        r = subprocess.run(['lake', 'env', 'printenv'], cwd=COPY, capture_output=True, text=True)
        ENV = dict(os.environ)
        for l in r.stdout.splitlines():
            if '=' in l:
                k, v = l.split('=', 1)
                ENV[k] = v
    return ENV

DECL = re.compile(r'^(?:@\[[^\]]*\] *)?(?:private |protected |noncomputable )*(theorem|lemma|def|example|instance|inductive|structure)\s*(\S*)', re.M)

def decl_at(path, line):
    best = '?'
    n = 0
    for i, l in enumerate(open(path).read().splitlines(), 1):
        m = DECL.match(l)
        if m and i <= line:
            best = m.group(2) if m.group(1) != 'example' else 'example at line %d' % i
        if i > line: break
    return best

def build(name, path):
    t = time.time()
    try:
        r = subprocess.run(['lean', '--run', DIR + '/Driver.lean', name, path, olean(name)], cwd=COPY, env=env(),
                           capture_output=True, text=True, timeout=1500)
    except subprocess.TimeoutExpired:
        return name, ['TIMEOUT'], time.time() - t
    errs = []
    for l in r.stdout.splitlines():
        m = re.match(r'ERR (\d+) (.*)', l)
        if m:
            d = decl_at(path, int(m.group(1)))
            if d not in errs: errs.append(d)
            open(OUT + '/errors.txt', 'a').write('%s:%s %s: %s\n' % (name, m.group(1), d, m.group(2)))
    if r.returncode != 0:
        errs.append('FAILED: ' + r.stderr[:300])
    return name, errs, time.time() - t

def run(m):
    print('==', m['name'], flush=True)
    t0 = time.time()
    shutil.rmtree(COPY, ignore_errors=True); shutil.copytree(SRC, COPY, symlinks=True)
    path = COPY + '/' + m['file']
    s = open(path).read()
    assert s.count(m['old']) == m.get('count', 1), (m['name'], s.count(m['old']))
    open(path, 'w').write(s.replace(m['old'], m['new']))
    open(OUT + '/errors.txt', 'w').close()
    mods = modules()
    first = m['file'][:-5].replace('/', '.')
    dirty = {first}
    changed = True
    while changed:
        changed = False
        for n, (p, deps) in mods.items():
            if n not in dirty and any(d in dirty for d in deps):
                dirty.add(n); changed = True
    dirty -= set(os.environ.get('MUTATE_SKIP', '').split())
    done, failed = set(), {}
    running = {}
    with ThreadPoolExecutor(int(os.environ.get('MUTATE_JOBS', '2'))) as ex:
        while len(done) < len(dirty):
            for n in dirty:
                if n not in done and n not in running and all(d not in dirty or d in done for d in mods[n][1]):
                    running[n] = ex.submit(build, n, mods[n][0])
            for n in list(running):
                if running[n].done():
                    _, errs, dt = running.pop(n).result()
                    done.add(n)
                    if errs: failed[n] = errs
            time.sleep(0.2)
    r = subprocess.run(['lean', DIR + '/Axioms.lean'], cwd=COPY, env=env(), capture_output=True, text=True)
    hit = sorted(set(re.findall(r'SORRY Verif\.Props\.(\S+)', r.stdout)))
    if 'error' in r.stdout: print(r.stdout[:500])
    direct = sorted(d for n, e in failed.items() if '.Props.' in n for d in e)
    res = dict(m, failed=failed, hit=hit, direct=direct, wall=round(time.time() - t0))
    json.dump(res, open(OUT + '/' + m['name'] + '.json', 'w'), indent=1)
    print('   failed decls:', {k: v for k, v in failed.items()}, flush=True)
    print('   properties hit:', ' '.join(hit) or 'NONE', '(%d s)' % res['wall'], flush=True)

if __name__ == '__main__':
    os.makedirs(COPY, exist_ok=True); os.makedirs(OUT, exist_ok=True)
    open(DIR + '/Driver.lean', 'w').write(DRIVER)
    open(DIR + '/Axioms.lean', 'w').write(AXIOMS)
    for m in json.load(open(sys.argv[1])):
        if len(sys.argv) == 2 or m['name'] in sys.argv[2:]:
            run(m)
