"""Build a wrong program until the first property theorem is lost.

`outcome(mut, defn, deps)` builds the scratch copy `mut`, in which the definition `defn` has been edited, and stops the build as soon as a
declaration fails on which some property theorem depends.  Failing examples and demonstrations do not count: they are taken out, and
the build goes on.
"""
import os, re, signal, subprocess

HEAD = r'(?:@\[[^\]]*\] )?(?:private |noncomputable )?'

def decl_at(lines, n):
    """name of the declaration around line n (1-based), with its namespace"""
    spaces, name = [], '?'
    for l in lines[:n]:
        m = re.match(r'namespace (\S+)', l)
        if m: spaces.append(m.group(1))
        m = re.match(r'end (\S+)', l)
        if m and spaces and spaces[-1] == m.group(1): spaces.pop()
        m = re.match(HEAD + r'(theorem|def|instance|structure|inductive|lemma|abbrev) (\S+)', l)
        if m: name = '.'.join(spaces + [m.group(2)])
        elif re.match(r'example', l): name = '.'.join(spaces + ['example'])
    return name

def take_out(path, line):
    """remove the example around the line, or the proof of the theorem around it"""
    ls = open(path).read().split('\n')
    i = min(line, len(ls)) - 1
    while i >= 0 and not re.match(HEAD + r'(theorem|example|def|instance|abbrev)\b', ls[i]): i -= 1
    if i < 0: return False
    j = i + 1
    while j < len(ls) and not re.match(r'\S', ls[j]): j += 1
    if ls[i].startswith('example'):
        while i > 0 and ls[i - 1].strip() and not re.match(r'(theorem|def|example|namespace|open|end|variable|/-!)', ls[i - 1]): i -= 1
        del ls[i:j]
    elif 'theorem ' in ls[i]:
        block, depth, cut = '\n'.join(ls[i:j]), 0, None
        for k, c in enumerate(block):
            if c in '([{⟨': depth += 1
            if c in ')]}⟩': depth -= 1
            if depth == 0 and block.startswith(':=', k) and not re.search(r'\b(let|have) [^\n]*$', block[:k]):
                cut = k; break
        if cut is None or 'sorry' in block: return False
        ls[i:j] = (block[:cut] + ':= by sorry\n').split('\n')
    else: return False
    open(path, 'w').write('\n'.join(ls))
    return True

def outcome(mut, defn, deps):
    """(declarations which failed, whether the edited definition does not compile, property theorems lost)"""
    failed = []
    lost = lambda: sorted(t for t, ds in deps.items() if t in failed or any(d in ds for d in failed))
    for _ in range(8):
        p = subprocess.Popen(['lake', 'build'], cwd=mut, stdout=subprocess.PIPE, stderr=subprocess.STDOUT, text=True, start_new_session=True)
        errs, stop = set(), False
        for l in p.stdout:
            m = re.match(r'error: (Verif/\S+\.lean):(\d+):', l)
            if not m: continue
            errs.add((m.group(1), int(m.group(2))))
            d = decl_at(open(f'{mut}/{m.group(1)}').read().split('\n'), int(m.group(2)))
            if d not in failed: failed.append(d)
            if d == defn or lost(): stop = True; break
        if stop:
            os.killpg(p.pid, signal.SIGKILL); p.wait()
            return failed, defn in failed, lost()
        p.wait()
        # from the last line of each file to the first
        done = [take_out(f'{mut}/{f}', n) for f, n in sorted(errs, key=lambda e: (e[0], -e[1]))]
        if not any(done): break
    return failed, False, lost()
