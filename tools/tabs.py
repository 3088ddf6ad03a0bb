import re
src=open('/repo/y.go').read()
def tab(n):
    m=re.search(r'var '+n+r' = \[\.\.\.\]\w+\{(.*?)\n\}',src,re.S)
    return [int(x) for x in re.findall(r'-?\d+',m.group(1))]
T={n:tab(n) for n in ['yyExca','yyAct','yyPact','yyPgo','yyR1','yyR2','yyChk','yyDef','yyTok1','yyTok2','yyTok3']}
names=re.search(r'var yyToknames = \[\.\.\.\]string\{(.*?)\n\}',src,re.S).group(1)
tok=[None]+re.findall(r'"([^"]*)"',names)   # tok[i] name of internal token i
tokno={n:i for i,n in enumerate(tok)}
yyLast=912
# grammar
g=open('/repo/asn1.y').read().split('%%')[1]
g=re.sub(r'/\*.*?\*/',' ',g,flags=re.S)
g=re.sub(r'//[^\n]*','',g)
# remove actions
g2='';d=0
for c in g:
    if c=='{': d+=1
    elif c=='}': d-=1
    elif d==0: g2+=c
toks=re.findall(r'[A-Za-z_0-9]+|[:|;]',g2)
rules=[None];i=0
while i<len(toks):
    lhs=toks[i]; assert toks[i+1]==':',(toks[i:i+5]); i+=2
    rhs=[]
    while True:
        if i>=len(toks) or toks[i]==';':
            rules.append((lhs,rhs)); i+=1; break
        if toks[i]=='|': rules.append((lhs,rhs)); rhs=[]; i+=1; continue
        if i+1<len(toks) and toks[i+1]==':': rules.append((lhs,rhs)); break
        rhs.append(toks[i]); i+=1
rules[0]=('$accept',['ModuleDefinition','$end'])
