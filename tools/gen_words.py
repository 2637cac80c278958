#!/usr/bin/env python3
"""Generate lean/Verif/Model/Words.lean: the word lists of the validators, copied from /repo."""
import re
B='/repo/internal/validator/'
def grab(f,var):
    ls=open(B+f).read().split('\n')
    i=next(k for k,l in enumerate(ls) if l.startswith('var '+var+' '))
    j=next(k for k in range(i,len(ls)) if ls[k].strip()=='}')
    ws=[]
    for l in ls[i+1:j]:
        l=l.split('//')[0]
        ws+=re.findall(r'"([^"]*)"',l)
    return ws,i+1,j+1
out=['/-\nWord lists copied from the validators (generated by tools/gen_words.py).\n-/\n','namespace DDL\n']
for f,var,name in [('validator_sqlite.go','ReservedWords_SQLite','reservedSqlite'),
 ('validator_postgresql.go','DataType_PostgreSQL','dataTypePostgres'),
 ('validator_postgresql.go','ReservedWords_PostgreSQL','reservedPostgres'),
 ('validator_mysql.go','DataType_MySQL','dataTypeMysql'),
 ('validator_mysql.go','ReservedWords_MySQL','reservedMysql')]:
    ws,a,b=grab(f,var)
    out.append(f'/-- {f}:{a}-{b} `{var}` ({len(ws)} words). -/\ndef {name} : List String := [')
    line='  '
    for k,w in enumerate(ws):
        s='"'+w+'"'+(',' if k<len(ws)-1 else ']')
        if len(line)+len(s)>95:
            out.append(line.rstrip()); line='  '
        line+=s+' '
    out.append(line.rstrip()+'\n')
out.append('end DDL')
print('\n'.join(out))
