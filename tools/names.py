"""Qualified names of the theorems named Cnn_* in a Lean file."""
import re
def theorems(s):
    stack=[];out=[]
    for l in s.split('\n'):
        m=re.match(r'(?:noncomputable )?section\b\s*(\S*)',l)
        if m: stack.append(('s',m.group(1))); continue
        m=re.match(r'namespace (\S+)',l)
        if m: stack.append(('n',m.group(1))); continue
        if re.match(r'end\b',l) and stack: stack.pop(); continue
        m=re.match(r'theorem (C\d\d+_\w+)',l)
        if m: out.append('.'.join([x for k,x in stack if k=='n']+[m.group(1)]))
    return out
