"""Append properties and notes: register(list of (id, title, statement, quantifier, why, anchors, note, model text))."""
import json


def register(new):
    with open('/verif/properties.jsonl', 'a') as f:
        for i, title, statement, quantifier, why, anchors, _, _ in new:
            f.write(json.dumps(dict(id=i, title=title, statement=statement, quantifier=quantifier, why_tests_cant=why,
                                    anchors=anchors)) + '\n')
    p = '/verif/tools/notes.py'
    s = open(p).read().rstrip()
    assert s.endswith('}')
    s = s[:-1] + ''.join(f"{n[0]!r}:{n[6]!r},\n" for n in new) + '}\n'
    open(p, 'w').write(s)
    p = '/verif/tools/mkdesign.py'
    s = open(p).read()
    i = s.index('\n}\n', s.index('MODEL = {'))
    s = s[:i + 1] + ''.join(f"{n[0]!r}: {n[7]!r},\n" for n in new) + s[i + 1:]
    open(p, 'w').write(s)
