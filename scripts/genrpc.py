#!/usr/bin/env python3
"""Generate lean/Verif/Model/RpcTable.lean from the RPC functions at the end of amqp_framing.c.
Every function must match the template completely, otherwise the script aborts."""
import re
R='/repo/'
C=open(R+'librabbitmq/amqp_framing.c').read()
H=open(R+'include/rabbitmq-c/framing.h').read()
def lineno(txt,pos): return txt.count('\n',0,pos)+1
def norm(s): return re.sub(r'\s+',' ',s).strip()
ids={}
for m in re.finditer(r'#define (AMQP_\w+_METHOD)\s*\\?\s*\(\(amqp_method_number_t\)0x([0-9A-F]{8})\)',H): ids[m.group(1)]=int(m.group(2),16)
structs={}
for m in re.finditer(r'typedef struct (amqp_\w+_t)_ \{(.*?)\} (amqp_\w+_t);',H,re.S):
    body=re.sub(r'/\*.*?\*/','',m.group(2),flags=re.S)
    structs[m.group(3)]={norm(x).rsplit(' ',1)[1]:norm(x).rsplit(' ',1)[0] for x in body.split(';') if norm(x)}
T={'amqp_bytes_t':'bytes','amqp_boolean_t':'bool','amqp_table_t':'table','uint32_t':'long','uint16_t':'short'}
out=[]
start=C.index('/**\n * amqp_connection_update_secret')
pos=start; n=0
for m in re.finditer(r'AMQP_EXPORT\s+(\w+) \*AMQP_CALL\s+(\w+)\((.*?)\) \{\n(.*?)\n\}\n',C[start:],re.S):
    ret,name,params,body=m.group(1),m.group(2),norm(m.group(3)),norm(m.group(4))
    ps=[p.strip().rsplit(' ',1) for p in params.split(',')]
    assert ps[0]==['amqp_connection_state_t','state'] and ps[1]==['amqp_channel_t','channel'],name
    ps=ps[2:]
    k=re.match(r'(\w+) req; ((?:req\.\w+ = [\w]+; )*)return amqp_simple_rpc_decoded\( ?state, channel, (\w+), (\w+), &req\);$',body)
    assert k,(name,body)
    st=structs[k.group(1)]
    sets=re.findall(r'req\.(\w+) = (\w+);',k.group(2))
    src=[]
    for f,v in sets:
        assert f in st
        if v=='0': src.append((f,'.zero .'+T[st[f]]))
        elif v=='amqp_empty_bytes': assert st[f]=='amqp_bytes_t'; src.append((f,'.empty'))
        else:
            i=[p[1] for p in ps].index(v)
            assert ps[i][0]==st[f],(name,f)
            src.append((f,'.param %d'%i))
    l0=lineno(C,start+m.start())+0; l1=lineno(C,start+m.end())-1
    out.append('  -- amqp_framing.c:%d-%d\n  ⟨"%s", [%s],\n    [%s],\n    0x%08X, 0x%08X⟩'%(l0,l1,name,', '.join('.'+T[p[0]] for p in ps),
      ', '.join('(.%s, %s)'%x for x in src),ids[k.group(3)],ids[k.group(4)]))
    n+=1
assert n==len(re.findall(r'AMQP_EXPORT',C[start:])),n
open('/verif/lean/Verif/Model/RpcTable.lean','w').write('''import Verif.Model.Methods0
/-!
# The generated RPC functions — GENERATED by scripts/genrpc.py from amqp_framing.c and framing.h

One entry per function; the script aborts on a function that does not have the expected shape, so nothing is dropped.
-/
namespace Rmq

/-- Where a field of the request comes from: the caller's `i`-th argument (after the connection and the channel), the literal 0 in a
field of this type, or amqp_empty_bytes. (codegen.py:244-484, amqp_framing.c.) -/
inductive Src where
  | param (i : Nat)
  | zero (t : CType)
  | empty
deriving Repr, DecidableEq

/-- A generated function: name, types of the arguments after the connection and the channel, the assignments to `req`, and the method
numbers of the request and of the reply (values from framing.h). -/
structure RpcFn where
  name : String
  params : List CType
  req : List (Fld × Src)
  request : UInt32
  reply : UInt32
deriving Repr, DecidableEq

/-- The functions of amqp_framing.c:%d-%d. -/
def rpcTable : List RpcFn := [
%s]

end Rmq
'''%(lineno(C,start),lineno(C,len(C)),',\n'.join(out)))
print(n)
