import sys,xml.dom.minidom as m
d=m.parse(sys.argv[1])
out=[]
esc=lambda s:s.replace('\\','\\\\').replace('\n','\\n').replace('\r','\\r').replace('\t','\\t')
def go(e):
    ch=[c for c in e.childNodes if not(c.nodeType==3 and c.data.strip(' \t\r\n')=='')]
    out.append(f"E\t{e.tagName}\t{len(e.attributes)}\t{len(ch)}")
    for k,v in e.attributes.items(): out.append(f"A\t{k}\t{esc(v)}")
    for c in ch:
        if c.nodeType==1: go(c)
        elif c.nodeType==3: out.append("T\t"+esc(c.data))
        else: raise Exception(c)
go(d.documentElement)
open(sys.argv[2],'w').write('\n'.join(out)+'\n')
