import re,sys
def arr(path,name):
    s=open(path).read()
    m=re.search(re.escape(name)+r'\s*\[[^\]]*\](?:\[[^\]]*\])?\s*=\s*\{(.*?)\};',s,re.S)
    body=m.group(1)
    body=re.sub(r'//[^\n]*','',body)
    body=re.sub(r'/\*.*?\*/','',body,flags=re.S)
    toks=re.findall(r"0[xX][0-9a-fA-F]+|'.'|-?\d+",body)
    out=[]
    for t in toks:
        if t[0]=="'": out.append("chr "+t)
        else: out.append(t)
    line=s[:m.start()].count('\n')+1
    endl=s[:m.end()].count('\n')+1
    return out,line,endl
def emit(path,name,lean,typ='Byte',doc=None,per=12):
    t,a,b=arr(path,name)
    r=[]
    rel=path.replace('/repo/','')
    r.append(f"/-- `{name}`, {rel}:{a}-{b} ({len(t)} entries, copied mechanically). -/")
    r.append(f"def {lean} : List {typ} := [")
    for i in range(0,len(t),per):
        r.append("  "+", ".join(t[i:i+per])+("," if i+per<len(t) else "]"))
    return "\n".join(r)+"\n"
if __name__=='__main__':
    print(emit(sys.argv[1],sys.argv[2],sys.argv[3]))
