from tabs import *
import re,sys
A=T
def action(st,tokn):
    """returns ('s',n)|('r',n)|('e',)|('a',)"""
    n=A['yyPact'][st]
    if n>-1000:
        n+=tokn
        if 0<=n<yyLast:
            a=A['yyAct'][n]
            if A['yyChk'][a]==tokn: return ('s',a)
    d=A['yyDef'][st]
    if d==-2:
        xi=0
        E=A['yyExca']
        while not(E[xi]==-1 and E[xi+1]==st): xi+=2
        xi+=2
        while not (E[xi]<0 or E[xi]==tokn): xi+=2
        d=E[xi+1]
        if d<0: return ('a',)
    if d==0: return ('e',)
    return ('r',d)
def goto(st,rule):
    n=A['yyR1'][rule]; g=A['yyPgo'][n]; j=g+st+1
    if j>=yyLast: return A['yyAct'][g]
    s=A['yyAct'][j]
    if A['yyChk'][s]!=-n: s=A['yyAct'][g]
    return s
words={}
for m in re.finditer(r'"([A-Za-z0-9-]+)":\s+(\w+),',open('/repo/lexer.go').read()): words[m.group(1)]=m.group(2)
sym={'{':'OPEN_CURLY','}':'CLOSE_CURLY','<':'LESS','>':'GREATER',',':'COMMA','.':'DOT','(':'OPEN_ROUND',')':'CLOSE_ROUND','[':'OPEN_SQUARE',']':'CLOSE_SQUARE','-':'MINUS',':':'COLON',';':'SEMICOLON','|':'PIPE','!':'EXCLAMATION','^':'CARET','::=':'ASSIGNMENT','..':'RANGE_SEPARATOR','...':'ELLIPSIS','[[':'LEFT_VERSION_BRACKETS',']]':'RIGHT_VERSION_BRACKETS'}
def lex(s):
    out=[]
    s=re.sub(r'--[^\n]*?(--|\n|$)',' ',s)
    for t in re.findall(r'::=|\.\.\.|\.\.|\[\[|\]\]|[A-Za-z][A-Za-z0-9]*(?:-[A-Za-z0-9]+)*|\d+|[{}<>,.()\[\]:;|!^-]',s):
        if t in words: out.append((words[t],t))
        elif t in sym: out.append((sym[t],t))
        elif t[0].isdigit(): out.append(('NUMBER',t))
        elif t[0].isupper(): out.append(('TYPEORMODULEREFERENCE',t))
        else: out.append(('VALUEIDENTIFIER',t))
    return out
def parse(s,trace=False):
    toks=[(tokno[a],b) for a,b in lex(s)]+[(1,'')]
    st=[(0,None)];i=0;hist=[]
    while True:
        a=action(st[-1][0],toks[i][0])
        if a[0]=='s': st.append((a[1],toks[i][1])); i+=1; hist.append(('push',len(st)-1,'tok '+toks[i-1][1]))
        elif a[0]=='r':
            n=A['yyR2'][a[1]]; ch=[x[1] for x in st[len(st)-n:]] if n else []
            if n: del st[-n:]
            st.append((goto(st[-1][0],a[1]),(a[1],rules[a[1]][0],ch)));hist.append(('push',len(st)-1,f'r{a[1]} {rules[a[1]][0]}'))
        elif a[0]=='a': return 'ok',hist
        else: return ('err',i,toks[i],st[-1][0]),hist
if __name__=='__main__':
    r,h=parse("M DEFINITIONS ::= BEGIN A ::= SEQUENCE { a INTEGER DEFAULT 5, b INTEGER DEFAULT 7 } END")
    print(r)
    for x in h: print(x)
