"""tools/showdef.py MODULE NAME...: print model definitions."""
import re,sys
s=open(f'/verif/lean/Verif/Model/{sys.argv[1]}.lean').read().split('\n')
for n in sys.argv[2:]:
    for i,l in enumerate(s):
        if re.match(r'(?:noncomputable )?def '+re.escape(n)+r'(\s|$)',l):
            j=i+1
            while j<len(s) and s[j].strip()!='': j+=1
            print('\n'.join(s[i:j])); print()
