"""Evidence, not proof: a transliteration of Spec/Published.lean and Spec/Co2.lean (not of the code) evaluated in
double precision on the inputs of /repo/examples and compared with the outputs recorded there."""
import math,csv
pi=math.pi
def waterDensity(T,P): return 1+1e-6*(-80*T-3.3*T**2+0.00175*T**3+489*P-2*T*P+0.016*T**2*P-1.3e-5*T**3*P-0.333*P**2-0.002*T*P**2)
def brineDensity(T,P,S): return waterDensity(T,P)+S*(0.668+0.44*S+1e-6*(300*P-2400*P*S+T*(80+3*T-3300*S-13*P+47*P*S)))
def waterVelocity(T,P): return (1402.85+4.871*T-0.04783*T**2+1.487e-4*T**3-2.197e-7*T**4+(1.524-0.0111*T+2.747e-4*T**2-6.503e-7*T**3+7.987e-10*T**4)*P
 +(3.437e-3+1.739e-4*T-2.135e-6*T**2-1.455e-8*T**3+5.230e-11*T**4)*P**2+(-1.197e-5-1.628e-6*T+1.237e-8*T**2+1.327e-10*T**3-4.614e-13*T**4)*P**3)
def brineVelocity(T,P,S): return waterVelocity(T,P)+S*(1170-9.6*T+0.055*T**2-8.5e-5*T**3+2.6*P-0.0029*T*P-0.0476*P**2)+S**1.5*(780-10*P+0.16*P**2)-820*S**2
def deadOilDensity(T,P,r): return (r+(0.00277*P-1.71e-7*P**3)*(r-1.15)**2+3.49e-4*P)/(0.972+3.81e-4*(T+17.78)**1.175)
def oilVelocity(T,P,r): return 2096*(r/(2.6-r))**.5-3.7*T+4.64*P+0.0115*(4.12*(1.08/r-1)**.5-1)*T*P
def vf(T,r,R,G): return 0.972+0.00038*(2.4*R*(G/r)**.5+T+17.8)**1.175
def liveOilDensity(T,r,R,G): return (r+0.0012*G*R)/vf(T,r,R,G)
def pseudo(T,r,R,G): return r/vf(T,r,R,G)/(1+0.001*R)
def brine(T,P,S):
    d=1000*brineDensity(T,P*1e-6,S*1e-6); return d*brineVelocity(T,P*1e-6,S*1e-6)**2,d
def oil(T,P,r,R,G):
    w=max(0,1-abs(R)); d=1000*(w*deadOilDensity(T,P*1e-6,r/1000)+(1-w)*liveOilDensity(T,r/1000,R,G))
    v=w*oilVelocity(T,P*1e-6,r/1000)+(1-w)*oilVelocity(T,P*1e-6,pseudo(T,r/1000,R,G))
    return d*v*v,d
def Z(t,p): return (0.03+0.00527*(3.5-t)**3)*p+(0.642*t-0.007*t**4-0.52)+0.109*(3.85-t)**2*math.exp(-(0.45+8*(0.56-1/t)**2)*p**1.2/t)
def gas(Tc,Pa,G):
    T=Tc+273.15;P=Pa*1e-6;t=T/(94.72+170.75*G);p=P/(4.892-0.4048*G);z=Z(t,p)
    h=1e-5;dz=(Z(t,p+h)-Z(t,p-h))/(2*h)
    ga=0.85+5.6/(p+2)+27.1/(p+3.5)**2-8.7*math.exp(-0.65*(p+1))
    return 1e6*(P/(1-p/z*dz)*ga), 1e6*P*(28.8e-3*G)/(8.314462618*T*z)
def wood(L):
    S=sum(f for _,f in L); return 1/sum(f/S/k for (k,r),f in L), sum(f/S*r for (k,r),f in L)
def brie(l,g,e):
    S=sum(f for _,f in l);a=wood(l)
    if not g: return a
    b=wood(g)
    return (a[0]-b[0])*S**e+b[0], S*a[1]+(1-S)*b[1]
def gassmann(Kd,Km,Kf,f): return Kd+(1-Kd/Km)**2/(f/Kf+(1-f)/Km-Kd/Km**2)
def nu(K,G): return (3*K-2*G)/(2*(3*K+G))
def hs(a,b,f,z): return 1/(f/(a+z)+(1-f)/(b+z))-z
def zeta(K,G): return G/6*((9*K+8*G)/(K+2*G))
def lower(a,b,f): return hs(a[0],b[0],f,4/3*min(a[1],b[1])),hs(a[1],b[1],f,zeta(min(a[0],b[0]),min(a[1],b[1]))),f*a[2]+(1-f)*b[2]
def hm(a,phi,P,C,f):
    K,G,r=a;n=nu(K,G)
    return (C**2*(1-phi)**2*G**2*P/(18*pi**2*(1-n)**2))**(1/3),(2+3*f-n*(1+3*f))/(5*(2-n))*(3*C**2*(1-phi)**2*G**2*P/(2*pi**2*(1-n)**2))**(1/3),r*(1-phi)
def friable(a,phi,pc,P,C,f): return lower(a,hm(a,pc,P,C,f),1-phi/pc)
def cn(n,nc,G,Gc,a):
    L=2*Gc/(pi*G)*((1-n)*(1-nc)/(1-2*nc)); return -0.024153*L**-1.3646*a**2+0.20405*L**-0.89008*a+0.00024649*L**-1.9864
def ct(n,G,Gc,a):
    L=Gc/(pi*G); return -1e-2*(2.26*n**2+2.07*n+2.3)*L**(0.079*n**2+0.1754*n-1.342)*a**2+(0.0573*n**2+0.0937*n+0.202)*L**(0.0274*n**2+0.0529*n-0.8765)*a+1e-4*(9.654*n**2+4.945*n+3.1)*L**(0.01867*n**2+0.4011*n-1.8186)
def rr(pc,p): return min(1,(2*(pc-p)/(3*(1-pc)))**.5)
def cement(ce,gr,phi,pc,f,C):
    a=rr(pc,phi);n=nu(*gr[:2]);kb=1/6*C*(1-pc)*(ce[0]+4/3*ce[1])*cn(n,nu(*ce[:2]),gr[1],ce[1],a)
    return kb,3/5*kb+f*(3/20*C*(1-pc)*ce[1]*ct(n,gr[1],ce[1],a)),(1-phi)*(a*ce[2]+(1-a)*gr[2])
def const(s,c,phi,pcem,pc,f,C): return lower(lower(c,s,pc-pcem),cement(c,s,pcem,pc,f,C),1-phi/pcem)
def weight(x,lo,up): return 1 if up==lo else min(1,max(0,(x-lo)/(up-lo)))
def patchy(s,c,phi,pcem,pub,P,Plb,pc,f,Cf,Cc):
    mix=lower(c,s,pc-pub);loose=friable(mix,phi,pc,P,Cf,f);lo=friable(mix,phi,pc,Plb,Cf,f);up=const(s,c,phi,pub,pc,f,Cc)
    line=lower(mix,cement(c,s,pcem,pc,f,Cc),1-phi/pcem)
    return tuple(loose[i]+weight(line[i],lo[i],up[i])*(up[i]-loose[i]) for i in (0,1))+((1-phi-(pc-pcem))*s[2]+(pc-pcem)*c[2],)
def murphy(p): return 25.98805*p**2-43.7622*p+21.6719
def addm(a,t,l):
    for b,f in l: a=lower(a,b,1 if t+f==0 else t/(t+f)); t+=f
    return a
def rows(f): return list(csv.DictReader(open('/repo/examples/'+f)))
def cmp(name,got,exp):
    keys=['ksat','kmin','kdry','mysat','rsat','kmin_fls']
    m=max(abs(g-float(e[k]))/abs(float(e[k])) for G,e in zip(got,exp) for k,g in zip(keys,G))
    print(name,len(got),'max relative difference',m)
def out(mineral,dry,dense,fl,phi): return gassmann(dry[0],dense[0],fl[0],phi),mineral[0],dry[0],dry[1],dry[2]+phi*fl[1],dense[0]
sand=(36e9,44e9,2650.);shale=(11e9,4.5e9,1.);cem=(36.8e9,44e9,2650.)
def ex1():
    r=[]
    for d in rows('example1.csv'):
        g=lambda k: float(d[k]); sf=g('sand_fraction')
        m=addm(sand,sf,[(shale,1-sf)]);P=g('fluid_pressure')
        fl=wood([(oil(75,P,800,153,.5),1-g('brine_saturation')-g('gas_saturation')),(brine(75,P,45000),g('brine_saturation')),(gas(75,P,.5),g('gas_saturation'))])
        dry=patchy(m,cem,g('porosity'),.36,.3,50e6-g('rock_pressure'),20e6,.4,.5,murphy(.4),9)
        r.append(out(m,dry,lower(cem,m,.1),fl,g('porosity')))
    cmp('example1',r,rows('example1_calibration.csv'))
ex1()
def trend(m,depth):
    return m[0]+1.5*depth, m[1]+1.2*depth, m[2]+1.35*depth
def ex23(which):
    r=[]
    for d in rows(f'example{which}.csv'):
        g=lambda k: float(d[k]); sf=g('sand_fraction')
        m=addm(sand,sf,[(shale,1-sf)]);P=g('fluid_pressure');phi=g('porosity')
        o=(oil(75,P,800,153,.5),1-g('brine_saturation'));b=(brine(75,P,45000),g('brine_saturation'))
        fl=brie([o,b],[],3)
        dry=(2900-1300*phi,1700-800*phi,m[2]*(1-phi))
        ref=min(50e6-30e6,100e6)
        if which==2:
            p=g('rock_pressure');pf=lambda a,x:a[0]*x**a[1]
            vv=math.sqrt(dry[0]/dry[1]+4/3)
            vv+=pf((12,-26),p)-pf((12,-26),ref); k=dry[0]+pf((20e9,-46),p)-pf((20e9,-46),ref)
            dry=(k,k/(vv**2-4/3),dry[2]+1*p**0-1)
        else:
            P1=50e6-g('rock_pressure')
            z=[patchy(m,cem,phi,.4-.04,.4-.1,x,20e6,.4,SR,murphy(.4),9) for x in (P1,ref)]
            dry=tuple(dry[i]*z[0][i]/z[1][i] for i in range(3))
        dry=trend(dry,g('depth'))
        r.append(out(m,dry,m,fl,phi))
    cmp(f'example{which}',r,rows(f'example{which}_calibration.csv'))
SR=1
ex23(3)
ex23(2)
fl=(2.3e9,994.5)
P=30e6
cmp('friable',[out(sand,friable(sand,.3,.4,P,9,1),sand,fl,.3)],rows('friable_sand_calibration.csv'))
cmp('patchy',[out(sand,patchy(sand,cem,.3,.36,.3,P,20e6,.4,1,9,9),lower(cem,sand,.1),fl,.3)],rows('patchy_cement_calibration.csv'))
import re,cmath
src=open('/verif/lean/Verif/Spec/Co2.lean').read()
body=src[src.index('noncomputable def phir'):]; body=body[:body.index('/--')]
terms=[(k,[float(x.strip('()')) for x in a.split()]) for k,a in re.findall(r'\b(poly|expo|gauss|crit) ((?:[-0-9.()]+ )+)δ τ',body)]
assert len(terms)==42
def phir(d,t):
    s=0
    for k,a in terms:
        if k=='poly': n,dd,tt=a; s+=n*d**int(dd)*t**tt
        elif k=='expo': n,dd,tt,c=a; s+=n*d**int(dd)*t**tt*cmath.exp(-d**int(c))
        elif k=='gauss': n,dd,tt,al,be,ga=a; s+=n*d**int(dd)*t**tt*cmath.exp(-al*(d-1)**2-be*(t-ga)**2)
        else:
            n,aa,b,B,C=a; u=(d-1)**2
            s+=n*(((1-t)+0.7*u**(1/.6))**2+B*u**aa)**b*d*cmath.exp(-C*u-275*(t-1)**2)
    return s
def phi0(d,t): return cmath.log(d)+8.37304456-3.70454304*t+2.5*cmath.log(t)+sum(a*cmath.log(1-cmath.exp(-b*t)) for a,b in [(1.99427042,3.15163),(0.62105248,6.11190),(0.41195293,6.77708),(1.04028922,11.32384),(0.08327678,27.08792)])
R,Tc,rhoc=0.1889241e3,304.1282,467.6
h=1e-20
fd=lambda d,t: phir(complex(d,h),t).imag/h
def pres(T,r): return r*R*T*(1+r/rhoc*fd(r/rhoc,Tc/T))/1e6
def w2(T,r):
    d=r/rhoc;t=Tc/T;e=1e-5
    f1=fd(d,t);fdd=(fd(d+e,t)-fd(d-e,t))/(2*e);fdt=(fd(d,t+e)-fd(d,t-e))/(2*e)
    f=lambda x:(phi0(d,complex(x,h))+phir(d,complex(x,h))).imag/h
    ftt=(f(t+e)-f(t-e))/(2*e)
    return R*T*(1+2*d*f1+d*d*fdd-(1+d*f1-d*t*fdt)**2/(t*t*ftt))
def dens(T,P):
    lo,hi=.1,1500.
    for _ in range(200):
        m=(lo+hi)/2
        if pres(T,m)<P: lo=m
        else: hi=m
    return m
def exc():
    r=[]
    for d in rows('carbon_dioxide_example.csv'):
        g=lambda k: float(d[k])
        m=addm(sand,MF,[(MB,1-MF)])
        T=75+273.15;rho=dens(T,g('fluid_pressure')/1e6)
        fl=(rho*w2(T,rho),rho)
        dry=patchy(m,cem,g('porosity'),.36,.3,50e6-g('rock_pressure'),20e6,.4,.5,murphy(.4),9)
        r.append(out(m,dry,lower(cem,m,.1),fl,g('porosity')))
    cmp('carbon dioxide',r,rows('carbon_dioxide_calibration.csv'))
MF=0.8;MB=shale
sand=(36.8e9,44e9,2650.);MB=(25e9,12e9,2650.);MF=.5
exc()
