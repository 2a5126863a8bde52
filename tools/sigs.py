import re,sys,glob
for c in sys.argv[1:]:
    for f in sorted(glob.glob(f'lean/Verif/Props/{c}*.lean')):
        s=open(f).read()
        for m in re.finditer(r'(/--(?:(?!-/).)*-/\s*)?(?:set_option [^\n]* in\s*)?theorem (C\d\d_\w+)(.*?):= ?(by|fun|⟨|\n)',s,re.S):
            d=(m.group(1) or '').strip()
            print(m.group(2), re.sub(r'\s+',' ',m.group(3)).strip()); print('   ',re.sub(r'\s+',' ',d)); 
