def trie(l,f):
    if len(l)==1: return f'(l {f(l[0])})'
    h=len(l)//2
    return f'(n {h} {trie(l[:h],f)} {trie(l[h:],f)})'
def wrap(s):
    out=[];cur=''
    for part in s.split(' '):
        if len(cur)+len(part)>110: out.append('  '+cur); cur=''
        cur+=(' ' if cur else '')+part
    out.append('  '+cur)
    return '\n'.join(out)
