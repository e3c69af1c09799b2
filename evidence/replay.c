/* Transcription by hand of Model/Assembly.lean and Model/Solver.lean to doubles, for the tutorial of the notebook
   (100 fibers, seed 0, G = 1, E = 625, lmin = 0.01, coupling = 0.99, packing = 3, itermax = 1000).  See README.md. */
#include <stdio.h>
#include <stdlib.h>
#include <math.h>
#include <string.h>
#define N 1068
int fib[N],beam[N],con[N]; double s[N],z[N];
int n,nK,nC; double *P; double *x,*q,*dq,*dx,*d,*v;
#define AT(r,c) P[(size_t)(r)*n+(c)]
int main(){
 FILE*f=fopen("mesh.txt","r"); for(int i=0;i<N;i++){long long a,b; if(fscanf(f,"%d %lld %lld %d %d",fib+i,&a,&b,beam+i,con+i)!=5)return 1; s[i]=a/1e15; z[i]=b/1e15;}
 double G=1,E=625,h=1,b=1,lmin=0.01,coup=0.99,tol=1e-6;
 int nb=0; static double ls[N]; static int bi[N],bj[N];
 for(int i=0;i<N;i++) if(i<beam[i]){bi[nb]=i;bj[nb]=beam[i];ls[nb]=s[beam[i]]-s[i];nb++;}
 double mn=1e9,mx=-1e9; for(int k=0;k<nb;k++){if(ls[k]<mn)mn=ls[k]; if(ls[k]>mx)mx=ls[k];}
 double lo=lmin,hi=mx; double x0=fmin(mn,lo),x1=fmax(mx,hi);
 int nc=0; static int ci[N],cj[N]; for(int i=0;i<N;i++) if(i<=con[i]){ci[nc]=i;cj[nc]=con[i];nc++;}
 nK=2*N; nC=3*nc; n=nK+nC; printf("beams %d contacts %d n %d min l %g max %g\n",nb,nc,n,mn,mx);
 P=calloc((size_t)n*n,8); x=calloc(n,8);q=calloc(n,8);dq=calloc(n,8);dx=calloc(n,8);d=calloc(n,8);v=calloc(n,8);
 for(int k=0;k<nb;k++){ double t=ls[k]; double l = t>=x1?hi : t==x0?lo : (hi-lo)/(x1-x0)*(t-x0)+lo;
  double k0=M_PI/4*G*b*h/l; k0/=1+G/E*(l/h)*(l/h); double k1=k0*l/2; k1*=coup; double k2=k0*l*l/3; k2+=k0*E/G*h*h; double k3=k0*l*l/2; double k4=k2-k3;
  int i=2*bi[k],j=2*bj[k];
  AT(i,i)+=k0;AT(i,i+1)+=k1;AT(i,j)-=k0;AT(i,j+1)+=k1;
  AT(i+1,i)+=k1;AT(i+1,i+1)+=k2;AT(i+1,j)-=k1;AT(i+1,j+1)-=k4;
  AT(j,i)-=k0;AT(j,i+1)-=k1;AT(j,j)+=k0;AT(j,j+1)-=k1;
  AT(j+1,i)+=k1;AT(j+1,i+1)-=k4;AT(j+1,j)-=k1;AT(j+1,j+1)+=k2;}
 double Z=-1e9; for(int i=0;i<N;i++) if(z[i]+0.5*h>Z)Z=z[i]+0.5*h;
 for(int k=0;k<nc;k++){int i=ci[k],j=cj[k]; int r=nK+3*k;
  #define SET(rr,cc,val) {AT(rr,cc)+=val; AT(cc,rr)+=val;}
  SET(r,2*i,-1.); SET(r+1,2*i,1.); SET(r+1,2*j,-1.); SET(r+2,2*j,1.);
  q[r]=z[i]-h/2; q[r+1]= i==j?INFINITY: z[j]-z[i]-h; q[r+2]=Z-z[j]-h/2; dq[r+2]=1;}
 double Z0=Z, Zc=Z; printf("Z0 %g\n",Z);
 // sparse rows
 int*rp=malloc((n+1)*4),*cl=malloc(4*200000); double*va=malloc(8*200000); int nn=0; double*cs=calloc(n,8);
 for(int r=0;r<n;r++){rp[r]=nn; for(int c=0;c<n;c++) if(AT(r,c)!=0){cl[nn]=c;va[nn]=AT(r,c);nn++; cs[c]+=fabs(AT(r,c));}} rp[n]=nn; free(P);
 printf("nnz %d\n",nn);
 int*act=malloc(4*n),*pos=malloc(4*n);
 int it=0; double rl=1;
 while(it<1000 && rl<3){
  for(int r=0;r<n;r++){double a=0;for(int k=rp[r];k<rp[r+1];k++)a+=va[k]*x[cl[k]]; d[r]=q[r]-a;}
  int m=0; for(int r=0;r<n;r++){pos[r]=-1; if(d[r]<=tol && cs[r]>0){pos[r]=m;act[m++]=r;}}
  // RCM-free: dense LU
  double*A=calloc((size_t)m*m,8),*y=malloc(8*m);
  for(int a=0;a<m;a++){int r=act[a]; y[a]=dq[r]; for(int k=rp[r];k<rp[r+1];k++) if(pos[cl[k]]>=0) A[(size_t)a*m+pos[cl[k]]]=va[k];}
  int sing=0;
  // track row extents to skip zeros
  for(int k=0;k<m;k++){int p=k;double mxv=fabs(A[(size_t)k*m+k]);for(int i=k+1;i<m;i++){double t=fabs(A[(size_t)i*m+k]);if(t>mxv){mxv=t;p=i;}}
   if(mxv==0){sing=1;break;}
   if(p!=k){for(int c=k;c<m;c++){double t=A[(size_t)k*m+c];A[(size_t)k*m+c]=A[(size_t)p*m+c];A[(size_t)p*m+c]=t;} double t=y[k];y[k]=y[p];y[p]=t;}
   double*rk=A+(size_t)k*m; static int nzc[8000]; int nz=0; for(int c=k+1;c<m;c++) if(rk[c]!=0) nzc[nz++]=c;
   for(int i=k+1;i<m;i++){double fct=A[(size_t)i*m+k]; if(fct==0)continue; fct/=rk[k]; double*ri=A+(size_t)i*m; for(int e=0;e<nz;e++)ri[nzc[e]]-=fct*rk[nzc[e]]; y[i]-=fct*y[k];}
  }
  for(int i=m-1;i>=0&&!sing;i--){double t=y[i];for(int c=i+1;c<m;c++)t-=A[(size_t)i*m+c]*y[c]; y[i]=t/A[(size_t)i*m+i];}
  free(A);
  if(sing){printf("singular at %d m=%d\n",it,m);break;}
  for(int r=0;r<n;r++)dx[r]= pos[r]>=0?y[pos[r]]:0; free(y);
  double err=0; double best=INFINITY; int br=-1;
  for(int r=0;r<n;r++){double a=0;for(int k=rp[r];k<rp[r+1];k++)a+=va[k]*dx[cl[k]]; v[r]=dq[r]-a; if(pos[r]>=0)err+=v[r]*v[r];
   if(d[r]>tol&&v[r]>0){double t=d[r]/v[r]; if(t<best){best=t;br=r;}}}
  err=sqrt(err);
  if(br<0){printf("no limiting\n");break;} if(err>1e-6){printf("err %g\n",err);break;}
  double dU=-best; for(int r=0;r<n;r++){x[r]+=dx[r]*dU;q[r]+=dq[r]*dU;} Zc+=dU; rl=Z0/Zc; it++;
  printf("it %d m %d dU %g Z %g packing %.3g err %g\n",it,m-nK,dU,Zc,rl,err); fflush(stdout);
 }
 double e1=0,e2=0; for(int r=0;r<n;r++){double a=0;for(int k=rp[r];k<rp[r+1];k++)a+=va[k]*x[cl[k]]; if(r<nK){e1+=a*a;}}
 printf("iterations %d packing %g |Ku+CTf| %g\n",it,rl,sqrt(e1));
}
