import os, re

def decl_at(path, line, root):
    """The declaration around a line of a Lean file."""
    ls = open(path).read().split('\n')
    ns = []
    name = None
    for l in ls[:line]:
        m = re.match(r'\s*namespace\s+(\S+)', l)
        if m: ns.append(m.group(1))
        m = re.match(r'\s*end\s+(\S+)', l)
        if m and ns and ns[-1] == m.group(1): ns.pop()
        m = re.match(r'\s*(?:@\[[^\]]*\]\s*)?(?:private |protected |noncomputable )*(theorem|lemma|def|example|instance|structure|inductive)\s+(\S+)?', l)
        if m:
            name = '.'.join(ns + [m.group(2)]) if m.group(1) != 'example' else 'example in ' + os.path.relpath(path, root)
    return name
