# checks that every function of the *_deprecated.go files logs and calls its replacement with the same arguments
import re,glob,collections
ren={'Serialize':'Marshal','SerializeTo':'MarshalTo','DecodeFromBytes':'UnmarshalBinary','Len':'MarshalLen'}
n=0;bad=[];kinds=collections.Counter()
for f in glob.glob("/repo/**/*_deprecated.go",recursive=True):
    s=open(f).read()
    for m in re.finditer(r'^func (\((\w+) \*?(\w+)\) )?(\w+)\((.*?)\)(.*?)\{\n(.*?)^\}',s,re.M|re.S):
        n+=1
        recv,var,ty,name,args,ret,body=m.group(1),m.group(2),m.group(3),m.group(4),m.group(5),m.group(6),m.group(7)
        lines=[l.strip() for l in body.strip().split('\n')]
        call=lines[-1]
        an=[a.split()[0] for a in args.split(',')] if args else []
        if recv:
            exp='return %s.%s(%s)'%(var,ren.get(name,'?'),', '.join(an))
        else:
            exp='return %s(%s)'%({"Serialize":"Marshal"}.get(name,name.replace("Decode","Parse")),', '.join(an))
        kinds[(bool(recv),name if recv else re.sub('Decode.*','Decode*',name))]+=1
        if call!=exp or len(lines)!=2: bad.append((f,name,lines))
print(n,kinds)
for b in bad: print(b)
